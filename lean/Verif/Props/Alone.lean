import Verif.Spec.Alone
import Verif.Lemmas.Alone
import Verif.Props.Crash

/-!
# C98, C99: references do not depend on other references or on earlier calls
-/

open Py Spec

namespace Props

/-- **C98.** The references of a list of lines are those of each line alone, in the order of the lines. If no
references are returned then one of the lines fails alone, with the same error. The word `key` must not be
a title of the knowledge base, whose titles are in upper case (C44). -/
theorem C98 [UnicodeDB] (undesirable : Str → Str) (lib : Lib) (kbs : Kbs) (hk : py! "key" ∉ kbs.tag.journalKeys) (fmt : List FmtPart)
    (link : Option Linker) (lines : List Str) : OneByOne (parseReferences undesirable lib kbs fmt link) lines := by
  unfold OneByOne
  rcases parse_alone (undesirable := undesirable) (lib := lib) hk (fmt := fmt) (link := link) lines with ⟨e, h1, h2⟩ | ⟨blocks, stats, h1, h2⟩
  · rw [h1]
    exact h2
  · rw [h1]
    exact ⟨blocks, rfl, h2⟩

/-- **C98.** Giving the raw text of a reference of a string back to the extraction, as a list of references,
gives exactly the references that were made from it, with all their fields. -/
theorem C98_again [UnicodeDB] (undesirable : Str → Str) (lib : Lib) (kbs : Kbs) (hk : py! "key" ∉ kbs.tag.journalKeys) (fmt : List FmtPart)
    (link : Option Linker) (only : Bool) (source : Str) (hl : only = false → ∀ l ∈ splitOn '\n' source, l.length ≤ 4300) (refs : List Field)
    (h : fromString undesirable lib kbs fmt link only source = .ok refs) :
    ∃ (texts : List Str) (blocks : List (List Field)), refs = blocks.flatten ∧
      All2 (fun text block => block ≠ [] ∧ (∀ r ∈ block, vals r (py! "raw_ref") = [text]) ∧
        (text ≠ [] → text.length ≤ 4300 → fromString undesirable lib kbs fmt link true text = .ok block)) texts blocks := by
  obtain ⟨lines, h1, h⟩ := bind_ok h
  obtain ⟨⟨rs, stats⟩, h2, h3⟩ := bind_ok h
  clear h
  have hr : refs = rs := by simpa [Pure.pure, Except.pure] using h3.symm
  clear h3
  subst hr
  have hs := strings_start hl h1
  have ho := C98 undesirable lib kbs hk fmt link lines
  unfold OneByOne at ho
  rw [h2] at ho
  obtain ⟨blocks, e, ho⟩ := ho
  refine ⟨lines, blocks, e, ?_⟩
  clear e h1 h2 hl
  induction ho with
  | nil => exact .nil
  | @cons t b ts bs hb _ ih =>
    refine .cons ?_ (ih fun t ht => hs t (by simp [ht]))
    obtain ⟨st, hb⟩ := hb
    obtain ⟨bl, e, h3⟩ := C01_raw_lines undesirable lib kbs fmt link [t] _ _ hb
    cases h3 with
    | @cons _ b' _ _ h4 h5 =>
      cases h5
      have e : b = b' := by simpa using e
      subst e
      refine ⟨h4.1, h4.2, fun hn h5 => ?_⟩
      obtain ⟨s1, s2, s3⟩ := hs t (by simp)
      unfold fromString
      rw [stringLines_one s2 hn s1 h5, s3]
      dsimp only [bind, Except.bind]
      rw [hb]
      rfl

set_option synthInstance.maxSize 1000 in
example : @fromString asciiDB id plainLib emptyKbs defaultFormat none true (py! "[1] One; Two\n[2] Three\nand more") = .ok
      [[(py! "linemarker", [py! "1"]), (py! "raw_ref", [py! "[1] One; Two"]), (py! "misc", [py! "One"])],
       [(py! "linemarker", [py! "1"]), (py! "raw_ref", [py! "[1] One; Two"]), (py! "misc", [py! "Two"])],
       [(py! "linemarker", [py! "2"]), (py! "raw_ref", [py! "[2] Three and more"]), (py! "misc", [py! "Three and more"])]] ∧
    @fromString asciiDB id plainLib emptyKbs defaultFormat none true (py! "[1] One; Two") = .ok
      [[(py! "linemarker", [py! "1"]), (py! "raw_ref", [py! "[1] One; Two"]), (py! "misc", [py! "One"])],
       [(py! "linemarker", [py! "1"]), (py! "raw_ref", [py! "[1] One; Two"]), (py! "misc", [py! "Two"])]] ∧
    @fromString asciiDB id plainLib emptyKbs defaultFormat none true (py! "[2] Three and more") = .ok
      [[(py! "linemarker", [py! "2"]), (py! "raw_ref", [py! "[2] Three and more"]), (py! "misc", [py! "Three and more"])]] := by
  decide +kernel

example : py! "key" ∉ emptyKbs.tag.journalKeys := by decide

/-! ### Earlier calls -/

/-- **C99**, if all calls use the same journals given by regular expression: whatever was extracted before, with
or without failure, a call returns what it returns with the knowledge bases as they were loaded. -/
theorem C99_partial [UnicodeDB] (undesirable : Str → Str) (lib : Lib) (kbs : Kbs) (hd : (kbs.tag.journalStd.map (·.1)).Nodup)
    (earlier : List Call) (he : ∀ c ∈ earlier, c.res = kbs.tag.journalsRe) (call : Call) (hc : call.res = kbs.tag.journalsRe) :
    (runCall undesirable lib (afterCalls undesirable lib kbs earlier) call).1 =
      parseReferences undesirable lib kbs call.fmt call.link call.lines := by
  have same : ∀ {k : Kbs} {c : Call}, KeptOf kbs k → c.res = kbs.tag.journalsRe → kbsFor k c.res = k := by
    intro k c hk h
    rw [h]
    rcases hk with rfl | rfl <;> rfl
  have after : ∀ (cs : List Call), (∀ c ∈ cs, c.res = kbs.tag.journalsRe) → ∀ k, KeptOf kbs k →
      KeptOf kbs (afterCalls undesirable lib k cs) := by
    intro cs
    induction cs with
    | nil => intro _ k hk; exact hk
    | cons c cs ih =>
      intro h k hk
      refine ih (fun c hc => h c (by simp [hc])) _ ?_
      show KeptOf kbs (parseReferencesKept undesirable lib (kbsFor k c.res) c.fmt c.link c.lines).2
      rw [same hk (h c (by simp))]
      exact (parse_kept hd hk undesirable lib c.fmt c.link c.lines).2
  have hk := after earlier he kbs (.inl rfl)
  unfold runCall
  rw [same hk hc]
  exact (parse_kept hd hk undesirable lib call.fmt call.link call.lines).1

/-- One title, and no journals given by regular expression. -/
def lettKbs : Kbs := ⟨{ smallKbs with journalsRe := [] }, [], []⟩

/-- A call with its own journals given by regular expression. -/
def otherCall : Call := ⟨[(py! "PHYS LETT", .str (py! "PHYS LETT"), py! "Proc.Lett.")], defaultFormat, none, [py! "[1] A. Smith, Nature"]⟩

/-- A call without. -/
def plainCall : Call := ⟨[], defaultFormat, none, [py! "[1] A. Smith, Phys. Lett. 10 (1990) 20"]⟩

/-- **C99 fails** if an earlier call brought its own journals given by regular expression: a name of them stays in
the dictionary of titles, and the later call, which does not use them, writes another journal. -/
theorem C99_refuted :
    ((@runCall asciiDB id spellLib lettKbs plainCall).1.toOption.map fun r => r.1.flatMap fun f => vals f (py! "journal_title")) =
        some [py! "Phys.Lett."] ∧
      ((@runCall asciiDB id spellLib (@afterCalls asciiDB id spellLib lettKbs [otherCall]) plainCall).1.toOption.map fun r =>
        r.1.flatMap fun f => vals f (py! "journal_title")) = some [py! "Proc.Lett."] := by
  decide +kernel

/-- The conditions of `C99_partial` for the knowledge bases of the witness. -/
example : (lettKbs.tag.journalStd.map (·.1)).Nodup ∧ plainCall.res = lettKbs.tag.journalsRe ∧ otherCall.res ≠ lettKbs.tag.journalsRe := by
  refine ⟨by decide +kernel, rfl, by simp [otherCall, lettKbs]⟩

/-- With the same journals given by regular expression the earlier call changes nothing. -/
example : ((@runCall asciiDB id spellLib (@afterCalls asciiDB id spellLib lettKbs [plainCall, { otherCall with res := [] }]) plainCall).1.toOption.map
    fun r => r.1.flatMap fun f => vals f (py! "journal_title")) = some [py! "Phys.Lett."] := by
  decide +kernel

end Props
