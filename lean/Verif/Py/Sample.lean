import Verif.Py.Basic

/-!
# Concrete character tables for examples and witnesses

There is no counterpart in `/repo`. The general theorems hold for every `UnicodeDB`; these
instances are used for concrete cases only.
-/

namespace Py

/-- No character outside ASCII has any property. -/
@[reducible] def asciiDB : UnicodeDB where
  word _ := false
  dec _ := none
  digit _ := false
  upper c := [c]
  lower c := [c]
  variants _ := []
  authUpper _ := false
  dec_lt := by simp
  dec_digit := by simp
  digit_word := by simp
  digit_nspace := by simp
  dec_variants := by simp
  variants_ascii := by simp

/-- A few facts of the real table: `²` is a digit but not decimal, `٣` is the decimal digit
three, `ß` has the two-character upper case `SS`, and `é`/`É` are a case pair. -/
@[reducible] def sampleDB : UnicodeDB where
  word c := c == '²' || c == '٣' || c == 'ß' || c == 'é' || c == 'É'
  dec c := if c = '٣' then some 3 else none
  digit c := c == '²' || c == '٣'
  upper c := if c = 'ß' then ['S', 'S'] else if c = 'é' then ['É'] else [c]
  lower c := if c = 'É' then ['é'] else [c]
  variants c := if c = 'é' then ['É'] else if c = 'É' then ['é'] else []
  authUpper c := c == 'É'
  dec_lt c d h := by
    split at h
    · cases h; decide
    · cases h
  dec_digit c h := by
    split at h
    · rename_i h'; simp [h']
    · simp at h
  digit_word c h := by
    simp only [Bool.or_eq_true, beq_iff_eq] at h ⊢
    rcases h with h | h <;> simp [h]
  digit_nspace c h := by
    simp only [Bool.or_eq_true, beq_iff_eq] at h
    rcases h with rfl | rfl <;> rfl
  dec_variants c h := by
    split at h
    · rename_i h'; subst h'; decide
    · simp at h
  variants_ascii c v h ha := by
    split at h
    · cases List.mem_singleton.1 h; cases ha
    · split at h
      · cases List.mem_singleton.1 h; cases ha
      · cases h

end Py
