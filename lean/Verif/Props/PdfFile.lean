import Verif.Lemmas.PdfFile

/-!
# Cleaning a PDF file: C46, C47
-/

open Py Spec

namespace Props

/-- **C46.** A file without PDF header is left as it is. -/
theorem C46_not_pdf (f : Bytes) (hf : f ≠ []) (h : Absent "%PDF-".toUTF8.toList f) : cleanPdf f = (.ok (), f) := by
  rw [header_eq] at h
  have := (findB_none (by decide)).2 h
  simp [cleanPdf, this, hf]

example : cleanPdf "PDF-1.4 text".toUTF8.toList = (.ok (), "PDF-1.4 text".toUTF8.toList) := by decide +kernel

/-- **C46.** A file with a header and an end-of-file marker after it becomes exactly the part
from the first header to the last marker, both included. -/
theorem C46_cut (f mid : Bytes) (h : PdfPart f mid) : cleanPdf f = (.ok (), mid) := by
  obtain ⟨a, z, e, hf, hm, h1, h2⟩ := h
  rw [header_eq] at h1
  rw [eof_eq] at hm h2
  have hst := findB_first (by decide) h1
  have hfin := rfind_last (by decide) h2
  have he : mid.length = e.length + 5 := by simp [hm, pdfEof]
  have hne : f.isEmpty = false := by
    cases f with
    | nil =>
      have := congrArg List.length hf
      simp only [List.length_append, List.length_nil] at this
      omega
    | cons => rfl
  have hlen : f.length = a.length + mid.length + z.length := by rw [hf]; simp only [List.length_append]
  have hcount : ((a ++ e).length : Int) + 5 - a.length = (mid.length : Nat) := by
    simp only [List.length_append]
    omega
  have hmid : (f.drop a.length).take mid.length = mid := by simp [hf]
  unfold cleanPdf
  simp only [hne, Bool.false_eq_true, if_false, hst, hfin, pos, hcount]
  by_cases ha : 0 < a.length
  · have : ¬ f.length < a.length + mid.length := by omega
    simp only [ha, if_true, mmapMove, Int.toNat_natCast, this, if_false,
      if_neg (Int.not_lt.2 (Int.natCast_nonneg _)), mmapResize, hmid]
    rw [if_neg (by omega)]
    simp
  · have ha : a = [] := List.length_eq_zero_iff.1 (by omega)
    subst ha
    simp only [List.nil_append, List.length_nil, Nat.lt_irrefl, if_false]
    simp only [List.nil_append, List.length_nil, Nat.zero_add, List.drop_zero] at hf hlen hmid
    split
    · simp only [mmapResize, if_neg (Int.not_lt.2 (Int.natCast_nonneg _)), Int.toNat_natCast, hmid]
      rw [if_neg (by omega)]
    · rename_i hc
      by_cases hz : z.length = 0
      · rw [List.length_eq_zero_iff.1 hz, List.append_nil] at hf
        rw [hf]
      · exfalso
        apply hc
        have : 0 < e.length := by
          rcases Nat.eq_zero_or_pos e.length with h0 | h0
          · obtain ⟨b, hb⟩ := h1.1
            rw [List.length_eq_zero_iff.1 h0] at hm
            rw [hf, hm] at hb
            simp [pdfEof, pdfHeader] at hb
          · exact h0
        exact ⟨by omega, by omega⟩

example : cleanPdf "junk%PDF-1.4 a%%EOF b%%EOF tail".toUTF8.toList = (.ok (), "%PDF-1.4 a%%EOF b%%EOF".toUTF8.toList) := by
  decide +kernel

/-- **C46.** Cleaning twice equals cleaning once: the part kept is its own PDF part. -/
theorem C46_idempotent (f mid : Bytes) (h : PdfPart f mid) : cleanPdf (cleanPdf f).2 = cleanPdf f := by
  rw [C46_cut f mid h]
  apply C46_cut
  obtain ⟨a, z, e, hf, hm, ⟨⟨b, h1⟩, h1'⟩, ⟨-, h2⟩⟩ := h
  refine ⟨[], [], e, by simp, hm, ⟨?_, fun _ _ => Nat.zero_le _⟩, ⟨⟨[], by simp [hm]⟩, ?_⟩⟩
  · -- the header lies inside the part
    rw [header_eq] at *
    rw [eof_eq] at hm h2
    rw [hf, List.append_assoc, List.append_assoc] at h1
    have h1 := List.append_cancel_left h1
    by_cases hl : 5 ≤ mid.length
    · refine ⟨mid.drop 5, ?_⟩
      have : mid.take 5 = pdfHeader := by
        have := congrArg (List.take 5) h1
        rwa [List.take_append_of_le_length hl, List.take_append_of_le_length (by decide)] at this
      rw [List.nil_append, ← this, List.take_append_drop]
    · simp only [hm, List.length_append, pdfEof] at hl
      simp at hl
  · rintro a' ⟨b', hb'⟩
    have hb' : mid = a' ++ "%%EOF".toUTF8.toList ++ b' := hb'
    have := h2 (a ++ a') ⟨b' ++ z, by rw [hf]; simp [hb']⟩
    simp only [List.length_append] at this
    simp only [List.length_append, List.length_nil]
    omega

example : let f := "x%PDF-%%EOFy".toUTF8.toList
    cleanPdf (cleanPdf f).2 = (.ok (), "%PDF-%%EOF".toUTF8.toList) := by decide +kernel

/-- **C47**, the part that holds: a file that begins with the header and has no end-of-file
marker is left as it is. Missing: files with something in front of the header, see
`C47_counterexample`. -/
theorem C47_partial (f : Bytes) (h1 : BeforeFirst "%PDF-".toUTF8.toList f []) (h2 : Absent "%%EOF".toUTF8.toList f) :
    cleanPdf f = (.ok (), f) := by
  rw [header_eq] at h1
  rw [eof_eq] at h2
  have hst := findB_first (by decide) h1
  have hfin := (rfind_none (by decide)).2 h2
  have hne : f ≠ [] := by
    rintro rfl
    obtain ⟨b, hb⟩ := h1.1
    simp [pdfHeader] at hb
  simp [cleanPdf, hne, hst, hfin, pos]

example : cleanPdf "%PDF-1.4 abc".toUTF8.toList = (.ok (), "%PDF-1.4 abc".toUTF8.toList) := by decide +kernel

/-- **C47**, violation: with no end-of-file marker and something before the header, the call
fails when at least five bytes precede the header, and otherwise the file is cut down to fewer
than four bytes. -/
theorem C47_violation (f a : Bytes) (ha : a ≠ []) (h1 : BeforeFirst "%PDF-".toUTF8.toList f a)
    (h2 : Absent "%%EOF".toUTF8.toList f) :
    (5 ≤ a.length ∧ cleanPdf f = (.error .valueError, f)) ∨
    (a.length ≤ 4 ∧ (cleanPdf f).2 = "%PD".toUTF8.toList.take (4 - a.length)) := by
  rw [header_eq] at h1
  rw [eof_eq] at h2
  have hst := findB_first (by decide) h1
  have hfin := (rfind_none (by decide)).2 h2
  obtain ⟨b, hb⟩ := h1.1
  have hne : f.isEmpty = false := by
    rw [hb]
    cases a with
    | nil => rfl
    | cons => rfl
  have hpos : 0 < a.length := List.length_pos_iff.2 ha
  unfold cleanPdf
  simp only [hne, Bool.false_eq_true, if_false, hst, hfin, pos, hpos, if_true]
  by_cases h5 : 5 ≤ a.length
  · left
    refine ⟨h5, ?_⟩
    rw [mmapMove, if_pos (by omega)]
  · right
    refine ⟨by omega, ?_⟩
    have hc : (-1 + 5 - (a.length : Int)) = ((4 - a.length : Nat) : Int) := by omega
    rw [hc, mmapMove, if_neg (by omega), Int.toNat_natCast, if_neg (by simp [hb, pdfHeader]; omega)]
    simp only [mmapResize, if_neg (Int.not_lt.2 (Int.natCast_nonneg _)), Int.toNat_natCast]
    have e1 : ("%PD".toUTF8.toList : Bytes) = [37, 80, 68] := by decide +kernel
    rw [e1]
    match a, ha, h5, hb with
    | [_], _, _, hb => simp [hb, pdfHeader]
    | [_, _], _, _, hb => simp [hb, pdfHeader]
    | [_, _, _], _, _, hb => simp [hb, pdfHeader]
    | [_, _, _, _], _, _, hb => simp

/-- **C47**, violation: when the last end-of-file marker precedes the first header the call
always fails, and the file is emptied if the marker touches the header. -/
theorem C47_early_marker (f a e : Bytes) (h1 : BeforeFirst "%PDF-".toUTF8.toList f a)
    (h2 : BeforeLast "%%EOF".toUTF8.toList f e) (hlt : e.length < a.length) :
    (e.length + 5 < a.length ∧ cleanPdf f = (.error .valueError, f)) ∨
    (a.length ≤ e.length + 5 ∧ cleanPdf f = (.error .osError, [])) := by
  rw [header_eq] at h1
  rw [eof_eq] at h2
  have hst := findB_first (by decide) h1
  have hfin := rfind_last (by decide) h2
  obtain ⟨b, hb⟩ := h1.1
  obtain ⟨d, hd⟩ := h2.1
  have hne : f.isEmpty = false := by
    rw [hb]
    cases a with
    | nil => rfl
    | cons => rfl
  have hpos : 0 < a.length := by omega
  have hapart : e.length + 5 ≤ a.length := by
    apply Classical.byContradiction
    intro hc
    have hpre : e <+: a := by
      rw [← occurs_take h1.1, ← occurs_take h2.1]
      exact List.take_prefix_take_left (Nat.le_of_lt hlt)
    obtain ⟨k, rfl⟩ := hpre
    rw [hb, List.append_assoc, List.append_assoc, List.append_assoc] at hd
    have hd := List.append_cancel_left hd
    simp only [List.length_append] at hlt hc
    match k, hlt, hc, hd with
    | [], hlt, _, _ => simp at hlt
    | [_], _, _, hd => simp [pdfHeader, pdfEof] at hd
    | [_, _], _, _, hd => simp [pdfHeader, pdfEof] at hd
    | [_, _, _], _, _, hd => simp [pdfHeader, pdfEof] at hd
    | [_, _, _, _], _, _, hd => simp [pdfHeader, pdfEof] at hd
    | _ :: _ :: _ :: _ :: _ :: _, _, hc, _ =>
      simp only [List.length_cons] at hc
      omega
  unfold cleanPdf
  simp only [hne, Bool.false_eq_true, if_false, hst, hfin, pos, hpos, if_true]
  by_cases h5 : e.length + 5 < a.length
  · left
    refine ⟨h5, ?_⟩
    rw [mmapMove, if_pos (by omega)]
  · right
    refine ⟨by omega, ?_⟩
    have hc : ((e.length : Int) + 5 - (a.length : Int)) = 0 := by omega
    rw [hc, mmapMove, if_neg (by omega), if_neg (by simp [hb])]
    simp [mmapResize]

example : cleanPdf "%%EOF%PDF-1.4".toUTF8.toList = (.error .osError, []) := by decide +kernel

/-- **C47** is false: the file `\n%PDF-1.4 abc` is destroyed. -/
theorem C47_counterexample : ∃ f : Bytes, OccursAfter "%PDF-".toUTF8.toList f [10] ∧ Absent "%%EOF".toUTF8.toList f ∧
    (cleanPdf f).2 = "%PD".toUTF8.toList := by
  refine ⟨10 :: "%PDF-1.4 abc".toUTF8.toList, ⟨[49, 46, 52, 32, 97, 98, 99], by decide +kernel⟩, ?_, by decide +kernel⟩
  rw [eof_eq]
  exact (rfind_none (by decide)).1 (by decide +kernel)

example : cleanPdf "abcde%PDF-1.4 abc".toUTF8.toList = (.error .valueError, "abcde%PDF-1.4 abc".toUTF8.toList) := by
  decide +kernel

end Props
