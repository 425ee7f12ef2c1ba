import Verif.Gen.Regexs

/-!
# Journal numeration

Model of `/repo/refextract/references/tag.py:451-478`, `554-575` and `1108-1154`.
-/

namespace Py

/-- The dictionary returned by `find_numeration` and `find_numeration_more`
(`tag.py:470-477`, `1143-1150`). `none` is Python's `None`. The key `jinst_page` read in
`engine.py:497` is never present. -/
structure Numeration where
  year : Option Str
  series : Option Str
  volume : Option Str
  page : Option Str
  pageEnd : Option Str
  len : Nat
deriving DecidableEq, Repr

/-- Python's `a or b` on strings that may be `None`. -/
def orElse (a b : Option Str) : Option Str :=
  match a with
  | some (c :: s) => some (c :: s)
  | _ => b

/-- `extract_series_from_volume` (`tag.py:554-560`). -/
def extractSeries [UnicodeDB] (volume : Str) : Option Str :=
  match search Rx.re_series_from_numeration volume with
  | some m => (m.group 1).map upper
  | none =>
    match search Rx.re_series_from_numeration_after_volume volume with
    | some m => (m.group 1).map upper
    | none => none

/-- The volume number: the first non-empty of the three groups (`tag.py:1137-1140`). -/
def volumeGroup (m : Match) : Option Str :=
  orElse (orElse (m.group G.vol_num) (m.group G.vol_num_alt)) (m.group G.vol_num_alt2)

/-- The dictionary made from a match of one of the main patterns (`tag.py:1133-1150`).
`re.search` on a `vol` group that took no part would be a `TypeError`. -/
def numerationOf [UnicodeDB] (m : Match) : Py Numeration :=
  let mk (series : Option Str) : Numeration :=
    { year := m.group G.year, series, volume := volumeGroup m,
      page := orElse (m.group G.page) (m.group G.jinst_page), pageEnd := m.group G.page_end, len := m.stop }
  match m.group G.series with
  | some (c :: s) => .ok (mk (some (c :: s)))
  | _ => match m.group G.vol with
    | some v => .ok (mk (extractSeries v))
    | none => .error .typeError

/-- The first pattern of a list that matches at the start of the line. -/
def firstMatch [UnicodeDB] (ps : List Re) (line : Str) : Option Match := ps.findSome? (reMatch · line)

/-- The patterns of `find_numeration` in order (`tag.py:1115-1135`). -/
def numerationPatterns : List Re :=
  [Rx.re_numeration_vol_page_yr, Rx.re_numeration_vol_nucphys_page_yr, Rx.re_numeration_nucphys_vol_page_yr,
   Rx.re_numeration_vol_subvol_nucphys_yr_page, Rx.re_numeration_vol_nucphys_yr_subvol_page,
   Rx.re_numeration_vol_yr_page, Rx.re_numeration_nucphys_vol_yr_page,
   Rx.re_numeration_vol_nucphys_series_yr_page, Rx.re_numeration_vol_series_nucphys_page_yr,
   Rx.re_numeration_vol_nucphys_series_page_yr, Rx.re_numeration_yr_vol_page]

/-- `find_numeration` (`tag.py:1108-1154`). -/
def findNumeration [UnicodeDB] (line : Str) : Py (Option Numeration) :=
  match firstMatch numerationPatterns line with
  | none => .ok none
  | some m => do
    let n ← numerationOf m
    return some n

/-- The patterns of `find_numeration_more` in order (`tag.py:454-459`). -/
def numerationPatterns2 : List Re :=
  [Rx.re_correct_numeration_2nd_try_ptn1, Rx.re_correct_numeration_2nd_try_ptn2,
   Rx.re_correct_numeration_2nd_try_ptn3, Rx.re_correct_numeration_2nd_try_ptn4]

/-- The dictionary made from a match of `find_numeration_more` (`tag.py:463-477`). -/
def numerationMoreOf [UnicodeDB] (m : Match) : Py Numeration :=
  match m.group G.vol, m.group G.aftertitle with
  | some v, some after =>
    .ok { year := m.group G.year, series := extractSeries v, volume := volumeGroup m,
          page := orElse (m.group G.page) (m.group G.jinst_page), pageEnd := m.group G.page_end,
          len := after.length }
  | _, _ => .error .typeError

/-- `find_numeration_more` (`tag.py:451-478`). -/
def findNumerationMore [UnicodeDB] (line : Str) : Py (Option Numeration) :=
  match numerationPatterns2.findSome? (search · line) with
  | none => .ok none
  | some m => do
    let n ← numerationMoreOf m
    return some n

/-- `"%s" % value` of a string or `None`. -/
def showVal (v : Option Str) : Str := v.getD (py! "None")

/-- `create_numeration_tag` (`tag.py:563-575`). Adding a series to a missing volume would be a
`TypeError`; a missing volume or page would be shown as `None`. -/
def numerationTag (n : Numeration) : Py Str := do
  let vol ← match n.series with
    | some (c :: s) => match n.volume with
      | some v => pure (some (c :: s ++ v))
      | none => .error .typeError
    | _ => pure n.volume
  let tags := py! " <cds.VOL>" ++ showVal vol ++ py! "</cds.VOL>"
  let tags := match n.year with
    | some (c :: y) => tags ++ py! " <cds.YR>(" ++ c :: y ++ py! ")</cds.YR>"
    | _ => tags
  match n.pageEnd with
  | some (c :: e) => return tags ++ py! " <cds.PG>" ++ showVal n.page ++ ['-'] ++ c :: e ++ py! "</cds.PG>"
  | _ => return tags ++ py! " <cds.PG>" ++ showVal n.page ++ py! "</cds.PG>"

end Py
