import Verif.Lemmas.Hdl
import Verif.Py.Sample

/-!
# Handles in the text of citations: C32
-/

namespace Props
open Py Spec

/-- **C32.** One element: its text is cut up at the handles, the element keeps the text in front of the
first and an element with the text behind it is put in for each, in the order of the text. -/
theorem C32_one [UnicodeDB] (e : El) : ∃ out, CutUp e out ∧ lookForHdl [e] = out := by
  obtain ⟨b, hs, k1, d', a', k2, -, k3⟩ := hdlLoop_spec (scan_scanned' hdl_minLen e.misc) [] e [] rfl
  obtain ⟨rfl, rfl⟩ := k3 (.inl (by simp))
  refine ⟨_, ⟨b, hs, k1, rfl⟩, ?_⟩
  simp only [lookForHdl, hdlGo, finditer, k2, List.append_nil]
  rfl

/-- **C32.** There is one way only to cut up a text. -/
theorem C32_unique (e : El) (out out' : List El) (h : CutUp e out) (h' : CutUp e out') : out = out' := by
  obtain ⟨b, hs, h1, rfl⟩ := h
  obtain ⟨b', hs', h2, rfl⟩ := h'
  obtain ⟨rfl, rfl⟩ := hdlCut_unique h1 h2
  rfl

/-- **C32.** The pieces make up the text, apart from what announces the handles. -/
theorem C32_text (s b : Str) (hs : List (Str × Str)) (h : HdlCut s b hs) :
    ∃ ps : List Str, ps.length = hs.length ∧ (∀ p ∈ ps, HdlPrefix p) ∧ s = b ++ (ps.zipWith (fun p h => p ++ h.1 ++ h.2) hs).flatten := by
  induction h with
  | nil => exact ⟨[], rfl, by simp, rfl⟩
  | ch _ _ ih =>
    obtain ⟨ps, h1, h2, h3⟩ := ih
    exact ⟨ps, h1, h2, by rw [h3]; rfl⟩
  | @hit p i r b hs h1 h2 _ _ ih =>
    obtain ⟨ps, h3, h4, h5⟩ := ih
    refine ⟨p :: ps, by simp [h3], ?_, ?_⟩
    · intro q hq
      rcases List.mem_cons.1 hq with rfl | hq
      · exact h1
      · exact h4 q hq
    · simp only [List.zipWith_cons_cons, List.flatten_cons, List.nil_append]
      rw [List.append_assoc (p ++ i), ← h5]

/-- **C32.** For every citation, what comes out is what becomes of the single elements, nothing added and
nothing lost; only the order is not settled by this. -/
theorem C32_kept [UnicodeDB] (es : List El) : ∃ outs, All2 CutUp es outs ∧ (lookForHdl es).Perm outs.flatten := by
  obtain ⟨outs, h1, h2⟩ := hdlGo_perm es []
  exact ⟨outs, h1, by simpa [lookForHdl] using h2⟩

/-- **C32**, order. Full statement: in every citation, the elements of the handles of a text follow the
element of the text directly. Proved for citations in which no element with a handle in its text is like
an earlier one apart from the text; refuted by `C32_misplaced` for others. -/
theorem C32_partial [UnicodeDB] (es : List El) (h : ∀ e ∈ es, e.ty ≠ .hdl)
    (hd : es.Pairwise fun x y => Differ x y ∨ HdlCut y.misc y.misc []) :
    ∃ outs, All2 CutUp es outs ∧ lookForHdl es = outs.flatten := by
  obtain ⟨outs, h1, h2⟩ := hdlGo_order es [] [] h (by simp) (by simp) hd
  exact ⟨outs, h1, by simpa [lookForHdl] using h2⟩

example : @lookForHdl asciiDB [{ ty := .misc, misc := py! "see hdl:2128/7, HDL:1/a and" }, { ty := .doi, misc := py! " x hdl:x http://hdl.handle.net/b//c", doiString := some (py! "10.1/2") }] =
    [{ ty := .misc, misc := py! "see " }, { ty := .hdl, misc := py! " ", hdlId := some (py! "2128/7,") }, { ty := .hdl, misc := py! " and", hdlId := some (py! "1/a") },
     { ty := .doi, misc := py! " x hdl:x ", doiString := some (py! "10.1/2") }, { ty := .hdl, misc := [], hdlId := some (py! "b//c") }] := by
  decide +kernel

example : [({ ty := .misc, misc := py! "see hdl:2128/7" } : El), { ty := .doi, misc := py! "hdl:1/2", doiString := some (py! "10.1/2") }].Pairwise
    fun x y => Differ x y ∨ HdlCut y.misc y.misc [] := by
  rw [List.pairwise_cons]
  refine ⟨fun y hy => ?_, by simp⟩
  rw [List.mem_singleton.1 hy]
  exact .inl (by decide +kernel)

/-- Two DOIs that are the same with a handle behind the second: the handle is put behind the first. -/
theorem C32_misplaced : @lookForHdl asciiDB
    [{ ty := .doi, misc := py! " ", doiString := some (py! "10.1/2") }, { ty := .misc, misc := py! "and" },
     { ty := .doi, misc := py! " hdl:1/a", doiString := some (py! "10.1/2") }] =
    [{ ty := .doi, misc := py! " ", doiString := some (py! "10.1/2") }, { ty := .hdl, misc := [], hdlId := some (py! "1/a") },
     { ty := .misc, misc := py! "and" }, { ty := .doi, misc := py! " ", doiString := some (py! "10.1/2") }] := by
  decide +kernel

end Props
