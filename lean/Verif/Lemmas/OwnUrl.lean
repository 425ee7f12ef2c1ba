import Verif.Lemmas.OwnDoi

/-!
# Helper lemmas: the URLs of a line (C125)
-/

open Spec

namespace Py

/-- The URL and its description. -/
abbrev El.urlPair (e : El) : Option Str × Option Str := (e.urlString, e.urlDesc)

/-- A URL element holds one of the listed URLs, with its description. -/
def OwnUrl (us : List (Str × Str)) (e : El) : Prop := e.ty = .url → ∃ u ∈ us, e.urlPair = (some u.1, some u.2)

/-! ### The transformations -/

theorem url_of_split {e e' : El} (h : splitVolume1 e = .ok e') : e'.urlPair = e.urlPair := by
  unfold splitVolume1 at h
  split at h
  · obtain ⟨_, _, h⟩ := bind_ok h
    split at h
    · obtain ⟨_, _, h⟩ := bind_ok h
      rw [← pure_ok h]
    · rw [← pure_ok h]
  · rw [← pure_ok h]

theorem url_of_formatVolume [UnicodeDB] {e e' : El} (h : formatVolume1 e = .ok e') : e'.urlPair = e.urlPair := by
  unfold formatVolume1 at h
  split at h
  · obtain ⟨_, _, h⟩ := bind_ok h
    split at h
    · obtain ⟨_, _, h⟩ := bind_ok h
      rw [← pure_ok h]
    · rw [← pure_ok h]
  · rw [← pure_ok h]

theorem url_of_special [UnicodeDB] {l : List Str} {e e' : El} (h : specialJournal1 l e = .ok e') : e'.urlPair = e.urlPair := by
  have tail : ∀ {e1 : El}, e1.urlPair = e.urlPair → (do
      let page ← getStr e1.page
      if isdigit page then do
        let n ← pyInt page
        return { e1 with page := some (some (padNat 3 n)) }
      else return e1) = (.ok e' : Py El) → e'.urlPair = e.urlPair := by
    intro e1 h1 h
    obtain ⟨p, h6, h⟩ := bind_ok h
    split at h
    · obtain ⟨n, h2, h⟩ := bind_ok h
      rw [← pure_ok h]; exact h1
    · rw [← pure_ok h]; exact h1
  have mid : ∀ {e2 : El} {vol : Str}, e2.urlPair = e.urlPair → (do
      let year ← getStr e2.year
      let n ← pyInt vol
      let e1 ← pure { e2 with volume := some (some (lastTwo year ++ padNat 2 n)) }
      let page ← getStr e1.page
      if isdigit page then do
        let n ← pyInt page
        return { e1 with page := some (some (padNat 3 n)) }
      else return e1) = (.ok e' : Py El) → e'.urlPair = e.urlPair := by
    intro e2 vol h1 h
    obtain ⟨y, _, h⟩ := bind_ok h
    obtain ⟨n, _, h⟩ := bind_ok h
    obtain ⟨e1, h2, h⟩ := bind_ok h
    exact tail (by rw [← pure_ok h2]; exact h1) h
  unfold specialJournal1 at h
  split at h
  · obtain ⟨v, h1, h⟩ := bind_ok h
    split at h
    · obtain ⟨v, h1, h⟩ := bind_ok h
      dsimp only at h
      split at h
      · obtain ⟨y, h2, h⟩ := bind_ok h
        split at h
        · obtain ⟨p, h3, h⟩ := bind_ok h
          split at h
          · obtain ⟨_, hx, h⟩ := bind_ok h
            exact mid (by rw [← pure_ok hx]) h
          · obtain ⟨_, hx, h⟩ := bind_ok h
            exact mid (by rw [← pure_ok hx]) h
        · obtain ⟨_, hx, h⟩ := bind_ok h
          exact mid (by rw [← pure_ok hx]) h
      · exact tail rfl h
    · rw [← pure_ok h]
  · rw [← pure_ok h]

theorem url_of_report [UnicodeDB] {e e' : El} (h : formatReportNumber1 e = .ok e') : e'.urlPair = e.urlPair := by
  unfold formatReportNumber1 at h
  split at h
  · obtain ⟨_, _, h⟩ := bind_ok h
    rw [← pure_ok h]
  · rw [← pure_ok h]

theorem url_of_hep {e e' : El} (h : formatHepEl e = .ok e') : e'.urlPair = e.urlPair := by
  unfold formatHepEl at h
  split at h
  · obtain ⟨_, _, h⟩ := bind_ok h
    rw [← pure_ok h]
  · rw [← pure_ok h]

theorem url_of_ed {e e' : El} (h : formatAuthorEd1 e = .ok e') : e'.urlPair = e.urlPair := by
  unfold formatAuthorEd1 at h
  split at h
  · obtain ⟨_, _, h⟩ := bind_ok h
    rw [← pure_ok h]
  · rw [← pure_ok h]

theorem url_of_removeB {e e' : El} (h : removeB1 e = .ok e') : e'.urlPair = e.urlPair := by
  unfold removeB1 at h
  split at h
  · obtain ⟨v, h1, h⟩ := bind_ok h
    split at h
    · split at h
      · rw [← pure_ok h]
      · obtain ⟨v, h1, h⟩ := bind_ok h
        split at h
        · rw [← pure_ok h]
        · rw [← pure_ok h]
    · rw [← pure_ok h]
  · rw [← pure_ok h]

theorem url_of_mangle [UnicodeDB] {e e' : El} (h : mangleVolume1 e = .ok e') : e'.urlPair = e.urlPair := by
  unfold mangleVolume1 at h
  split at h
  · obtain ⟨_, _, h⟩ := bind_ok h
    rw [← pure_ok h]
  · rw [← pure_ok h]

theorem url_of_arxivUrl {e e' : El} (h : arxivUrl1 e = .ok e') : e'.urlPair = e.urlPair := by
  unfold arxivUrl1 at h
  split at h
  · obtain ⟨_, _, h⟩ := bind_ok h
    split at h
    · rw [← pure_ok h]
    · rw [← pure_ok h]
  · rw [← pure_ok h]

theorem url_of_hdlUrl [UnicodeDB] {e e' : El} (h : hdlUrl1 e = .ok e') : e'.ty = .url → e'.urlPair = e.urlPair := by
  unfold hdlUrl1 at h
  split at h
  · obtain ⟨_, _, h⟩ := bind_ok h
    split at h
    · obtain ⟨_, _, h⟩ := bind_ok h
      rw [← pure_ok h]
      intro ht
      cases ht
    · rw [← pure_ok h]; exact fun _ => rfl
  · rw [← pure_ok h]; exact fun _ => rfl

theorem url_of_associate {l : Linker} {e e' : El} (h : associate1 l e = .ok e') : e'.urlPair = e.urlPair := by
  unfold associate1 at h
  split at h <;> cases h <;> rfl

theorem OwnUrl.step {us : List (Str × Str)} {e e' : El} (h : OwnUrl us e) (hk : KindOk e e') (hd : e'.ty = .url → e'.urlPair = e.urlPair) : OwnUrl us e' := by
  intro ht
  rcases hk with k | k | k | k
  · rw [hd ht]; exact h (k ▸ ht)
  all_goals rw [k] at ht; cases ht

theorem OwnUrl.of_kind {us : List (Str × Str)} {e : El} (h : e.ty ≠ .url) : OwnUrl us e := fun ht => absurd ht h

theorem transform_ownUrl [UnicodeDB] {us : List (Str × Str)} {special : List Str} {books : Books} {link : Option Linker} {es es' : List El}
    (h : ∀ e ∈ es, OwnUrl us e) (he : transformElements special books link es = .ok es') : ∀ e ∈ es', OwnUrl us e := by
  have step : ∀ {f : El → Py El}, (∀ e e', f e = .ok e' → KindOk e e') → (∀ e e', f e = .ok e' → e'.ty = .url → e'.urlPair = e.urlPair) →
      ∀ {es es' : List El}, (∀ e ∈ es, OwnUrl us e) → eachEl f es = .ok es' → ∀ e ∈ es', OwnUrl us e := by
    intro f hf hg es es' h he
    exact eachEl_all (P := OwnUrl us) (fun e e' hp hfe => hp.step (hf e e' hfe) (hg e e' hfe)) h he
  unfold transformElements at he
  obtain ⟨_, h1, he⟩ := bind_ok he
  replace h := step (fun _ _ => kind_split) (fun _ _ h _ => url_of_split h) h h1
  obtain ⟨_, h1, he⟩ := bind_ok he
  replace h := step (fun _ _ => kind_formatVolume) (fun _ _ h _ => url_of_formatVolume h) h h1
  obtain ⟨_, h1, he⟩ := bind_ok he
  replace h := step (fun _ _ => kind_special) (fun _ _ h _ => url_of_special h) h h1
  obtain ⟨_, h1, he⟩ := bind_ok he
  replace h := step (fun _ _ => kind_report) (fun _ _ h _ => url_of_report h) h h1
  obtain ⟨_, h1, he⟩ := bind_ok he
  replace h := step (fun _ _ => kind_ed) (fun _ _ h _ => url_of_ed h) h h1
  obtain ⟨_, h1, he⟩ := bind_ok he
  replace h := lookForBooks_all (P := OwnUrl us) (fun e h => .of_kind (by rw [h]; simp)) h h1
  obtain ⟨_, h1, he⟩ := bind_ok he
  replace h := step (fun _ _ => kind_hep) (fun _ _ h _ => url_of_hep h) h h1
  obtain ⟨_, h1, he⟩ := bind_ok he
  replace h := step (fun _ _ => kind_removeB) (fun _ _ h _ => url_of_removeB h) h h1
  obtain ⟨_, h1, he⟩ := bind_ok he
  replace h := step (fun _ _ => kind_mangle) (fun _ _ h _ => url_of_mangle h) h h1
  obtain ⟨_, h1, he⟩ := bind_ok he
  replace h := step (fun _ _ => kind_arxivUrl) (fun _ _ h _ => url_of_arxivUrl h) h h1
  replace h := lookForHdl_all (P := OwnUrl us) (fun e h => .of_kind (by rw [h]; simp)) (fun e m h => h) h
  obtain ⟨_, h1, he⟩ := bind_ok he
  replace h := step (fun _ _ => kind_hdlUrl) (fun _ _ => url_of_hdlUrl) h h1
  split at he
  · exact step (fun _ _ => kind_associate) (fun _ _ h _ => url_of_associate h) h he
  · rw [← pure_ok he]; exact h

/-! ### The later steps -/

theorem ownUrl_closed (us : List (Str × Str)) : Closed (OwnUrl us) where
  kind := by rintro e (h | h | h) <;> exact .of_kind (by rw [h]; simp)
  misc := fun _ _ h => h
  recid := fun _ _ h => h

theorem FewerAuthors.ownUrl {us : List (Str × Str)} {h h' : Heap} (f : FewerAuthors h h') (p : HeapAll (OwnUrl us) h) : HeapAll (OwnUrl us) h' := by
  intro i
  rcases f.2 i with g | ⟨-, g⟩
  · rw [g]; exact p i
  · exact .of_kind (by rw [g]; simp)

theorem dedupe_ownUrl {us : List (Str × Str)} {h h' : Heap} {cs cs' : List (List Nat)} (w : ∀ c ∈ cs, WF h c) (p : HeapAll (OwnUrl us) h)
    (e : dedupe h cs = .ok (h', cs')) : HeapAll (OwnUrl us) h' := by
  unfold dedupe at e
  obtain ⟨⟨h1, c1⟩, e1, k1⟩ := bind_ok e
  clear e
  obtain ⟨⟨h2, c2⟩, e2, k2⟩ := bind_ok k1
  clear k1
  obtain ⟨⟨h3, c3⟩, e3, k3⟩ := bind_ok k2
  clear k2
  dsimp only at e2 e3 k3
  obtain ⟨rfl, f1, a1⟩ := authPass w e1
  obtain ⟨rfl, r2⟩ := eachCit_pure (fun c c' => c' = dupDois h1 false c c) (by
    intro c h' c' hh
    simp only [dupDoisCit, Except.ok.injEq, Prod.mk.injEq] at hh
    exact ⟨hh.1.symm, hh.2.symm⟩) e2
  obtain ⟨rfl, r3⟩ := eachCit_pure (fun c c' => dupCollabs h2 [] c c = .ok c') (by
    intro c h' c' hh
    unfold dupCollabsCit at hh
    obtain ⟨x, k1, k2⟩ := bind_ok hh
    have := pure_ok k2
    simp only [Prod.mk.injEq] at this
    exact ⟨this.1.symm, by rw [k1, this.2]⟩) e3
  refine eachCit_heapAll ?_ (f1.ownUrl p) k3
  intro h c h' c' p e
  unfold addRecid at e
  split at e
  · simp only [Except.ok.injEq, Prod.mk.injEq] at e
    rw [← e.1]
    exact p.alloc (.of_kind (by simp))
  · simp only [Except.ok.injEq, Prod.mk.injEq] at e
    rw [← e.1]; exact p

theorem post_ownUrl [UnicodeDB] {us : List (Str × Str)} {special : List Str} {books : Books} {link : Option Linker} {els : List El}
    {cs : List (List El)} (hd : ∀ e ∈ els, OwnUrl us e) (e : postProcess special books link els = .ok cs) : ∀ c ∈ cs, ∀ x ∈ c, OwnUrl us x := by
  unfold postProcess at e
  obtain ⟨els', h1, k1⟩ := bind_ok e
  clear e
  have hd' := transform_ownUrl hd h1
  dsimp only at k1
  obtain ⟨⟨h, c1⟩, h2, k2⟩ := bind_ok k1
  clear k1
  obtain ⟨⟨h', c2⟩, h3, k3⟩ := bind_ok k2
  clear k2
  have hall : HeapAll (OwnUrl us) (heapOf (splitCitations els')) := by
    refine heapOf_all (fun m => .of_kind (by simp)) ?_
    refine split_all (OwnUrl us) (fun m => .of_kind (by simp)) (fun e m h => h) _ _ (by simp) (by simp) ?_
    intro o ho
    have : o.el ∈ (number 0 els').map (·.el) := List.mem_map_of_mem ho
    rw [number_map] at this
    exact hd' _ this
  obtain ⟨p, w⟩ := enrich_ok (ownUrl_closed us) hall (heapOf_wf els') h2
  have := pure_ok k3
  subst this
  intro c hc x hx
  obtain ⟨d, -, rfl⟩ := List.mem_map.1 hc
  obtain ⟨i, -, rfl⟩ := List.mem_map.1 hx
  exact dedupe_ownUrl w p h3 i

/-! ### Parsing -/

/-- The URLs made so far and those still to be used are recognised ones. -/
def UrlsFrom (us : List (Str × Str)) (st : PState) : Prop := (∀ e ∈ st.els, OwnUrl us e) ∧ ∀ u ∈ st.urls, u ∈ us

theorem urlsFrom_add {us : List (Str × Str)} {st : PState} (h : UrlsFrom us st) {e : El} (he : OwnUrl us e) {st' : PState}
    (h1 : st'.els = st.els ++ [e]) (h2 : ∀ d ∈ st'.urls, d ∈ st.urls) : UrlsFrom us st' := by
  refine ⟨?_, fun d hd => h.2 d (h2 d hd)⟩
  rw [h1]
  intro x hx
  rcases List.mem_append.1 hx with hx | hx
  · exact h.1 x hx
  · rw [List.mem_singleton.1 hx]; exact he

theorem urls_simple {us : List (Str × Str)} {tag : Str} {mk : Str → Str → El} {count : Counts → Counts} {n : Nat} {st : PState}
    (h : UrlsFrom us st) (hm : ∀ a b, (mk a b).ty ≠ .url) : UrlsFrom us (simpleStep tag mk count n st) := by
  unfold simpleStep
  split
  · exact h
  · exact urlsFrom_add h (.of_kind (hm _ _)) rfl fun _ h => h

theorem urls_subfield {us : List (Str × Str)} {tag : Str} {mk : Str → Str → El} {n : Nat} {st : PState}
    (h : UrlsFrom us st) (hm : ∀ a b, (mk a b).ty ≠ .url) : UrlsFrom us (subfieldStep tag mk n st) := by
  unfold subfieldStep
  dsimp only
  split
  · exact h
  · exact urlsFrom_add h (.of_kind (hm _ _)) rfl fun _ h => h

theorem urls_misc {us : List (Str × Str)} {tag : Str} {n : Nat} {st : PState} (h : UrlsFrom us st) : UrlsFrom us (miscStep tag n st) := by
  unfold miscStep
  split <;> exact h

variable [UnicodeDB]

theorem urls_journal {us : List (Str × Str)} {i : Bool} {title line : Str} {st : PState} (h : UrlsFrom us st) :
    UrlsFrom us (journalStep i title line st) := by
  unfold journalStep
  split
  · exact h
  · exact urlsFrom_add h (.of_kind (by simp)) rfl fun _ h => h

theorem tagStep_urls {us : List (Str × Str)} {st st' : PState} {m : Match} (hs : UrlsFrom us st) (h : tagStep st m = .ok st') :
    UrlsFrom us st' := by
  unfold tagStep at h
  dsimp only at h
  have fin : ∀ {a : PState}, Except.ok (ε := PyErr) a = .ok st' → UrlsFrom us a → UrlsFrom us st' := by
    intro a e ha
    cases e
    exact ha
  rcases ite_or h with ⟨-, h⟩ | ⟨-, h⟩
  · split at h
    · exact fin h hs
    · exact fin h (urls_journal hs)
  rcases ite_or h with ⟨-, h⟩ | ⟨-, h⟩
  · exact fin h (urls_simple hs fun _ _ => by simp)
  rcases ite_or h with ⟨-, h⟩ | ⟨-, h⟩
  · exact fin h (urls_simple hs fun _ _ => by simp)
  rcases ite_or h with ⟨c, h⟩ | ⟨-, h⟩
  · split at h
    · cases h
    · rename_i a b rest hu
      cases h
      refine urlsFrom_add hs (fun _ => ⟨(a, b), hs.2 _ (by rw [hu]; simp), rfl⟩) rfl fun x hx => ?_
      rw [hu]
      exact List.mem_cons_of_mem _ hx
  rcases ite_or h with ⟨c, h⟩ | ⟨-, h⟩
  · split at h
    · cases h
    · cases h
      exact urlsFrom_add hs (.of_kind (by simp)) rfl fun _ h => h
  rcases ite_or h with ⟨-, h⟩ | ⟨-, h⟩
  · exact fin h (urls_simple hs fun _ _ => by simp)
  rcases ite_or h with ⟨-, h⟩ | ⟨-, h⟩
  · exact fin h (urls_misc hs)
  rcases ite_or h with ⟨-, h⟩ | ⟨-, h⟩
  · exact fin h (urls_subfield hs fun _ _ => by simp)
  rcases ite_or h with ⟨-, h⟩ | ⟨-, h⟩
  · exact fin h (urls_subfield hs fun _ _ => by simp)
  rcases ite_or h with ⟨-, h⟩ | ⟨-, h⟩
  · exact fin h (urls_subfield hs fun _ _ => by simp)
  · exact fin h (urls_subfield hs fun _ _ => by simp)

theorem loop_urls {us : List (Str × Str)} : ∀ {fuel : Nat} {st st' : PState}, UrlsFrom us st → tagLoop fuel st = .ok st' → UrlsFrom us st'
  | 0, st, st', hs, h => by cases h; exact hs
  | fuel + 1, st, st', hs, h => by
    rw [tagLoop] at h
    cases hm : search Rx.re_tagged_citation st.line with
    | none => rw [hm] at h; cases h; exact hs
    | some m =>
      rw [hm] at h
      obtain ⟨st1, h1, h⟩ := bind_ok h
      exact loop_urls (tagStep_urls hs h1) h

theorem parseTagged_urls {line : Str} {dois : List Str} {urls : List (Str × Str)} {els : List El} {n : Counts}
    (h : parseTagged line dois urls = .ok (els, n)) : ∀ e ∈ els, OwnUrl urls e := by
  unfold parseTagged at h
  obtain ⟨st, hl, h⟩ := bind_ok h
  cases h
  have hs := (loop_urls (us := urls) ⟨by simp, fun _ h => h⟩ hl).1
  unfold finishTagged
  dsimp only
  split
  · intro e he
    rcases List.mem_append.1 he with he | he
    · exact hs e he
    · rw [List.mem_singleton.1 he]; exact .of_kind (by simp)
  · exact hs

/-- The URL elements of the citations of a line hold recognised URLs. -/
theorem line_urls {lib : Lib} {kbs : Kbs} {link : Option Linker} {line : Str} {bad bad' : List (Str × Nat)}
    {cs : List (List El)} {marker : Str} {n : Counts} (e : parseReferenceLine lib kbs link line bad = .ok (cs, marker, n, bad')) :
    ∀ c ∈ cs, ∀ x ∈ c, OwnUrl (tagUrls (tagDois lib (removeMarker line).2).1).2 x := by
  unfold parseReferenceLine at e
  dsimp only at e
  obtain ⟨⟨t, b⟩, e1, e⟩ := bind_ok e
  dsimp only at e
  obtain ⟨⟨els, k⟩, e2, e⟩ := bind_ok e
  dsimp only at e
  obtain ⟨c, e3, e⟩ := bind_ok e
  cases pure_ok e
  exact post_ownUrl (parseTagged_urls e2) e3

end Py
