import Verif.Gen.Regexs

/-!
# Joining, washing and repairing lines

Model of `/repo/refextract/documents/text.py:104-186`.
-/

namespace Py

/-- `join_lines` (`text.py:104-122`). -/
def joinLines (a b : Str) : Str :=
  match a.getLast? with
  | none => b
  | some c => if c = '-' then a.dropLast ++ b else if c ≠ ' ' then a ++ ' ' :: b else a ++ b

/-- `repair_broken_urls` (`text.py:125-140`). Group 1 takes part in every match. -/
def repairUrls [UnicodeDB] (line : Str) : Str :=
  Rx.url_repair_patterns.foldl (fun l r => sub r (fun m => ((m.group 1).getD []).filter (· != ' ')) l) line

/-- `remove_and_record_multiple_spaces_in_line` (`text.py:143-167`): the positions of the runs of
white space with the number of characters removed, and the line. -/
def compressSpaces [UnicodeDB] (line : Str) : List (Nat × Nat) × Str :=
  ((finditer Rx.re_group_captured_multiple_space line).map fun m => (m.start, m.txt.length - 1),
    sub Rx.re_group_captured_multiple_space (fun _ => [' ']) line)

/-- `wash_line` (`text.py:170-186`). -/
def washLine [UnicodeDB] (line : Str) : Str :=
  let line := sub Rx.re_space_comma (fun _ => [',']) line
  let line := sub Rx.re_space_semicolon (fun _ => [';']) line
  let line := sub Rx.re_space_period (fun _ => ['.']) line
  let line := sub Rx.re_colon_space_colon (fun _ => [':']) line
  let line := sub Rx.re_comma_space_colon (fun _ => [':']) line
  let line := sub Rx.re_space_closing_square_bracket (fun _ => [']']) line
  let line := sub Rx.re_opening_square_bracket_space (fun _ => ['[']) line
  let line := sub Rx.re_hyphens (fun _ => ['-']) line
  sub Rx.re_multiple_space (fun _ => [' ']) line

end Py
