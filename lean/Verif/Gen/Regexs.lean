import Verif.Py.Re

/-!
# Regular expressions of refextract

Generated by `tools/gen_regex.py` from the text of `/repo`; do not edit.
-/

set_option maxRecDepth 4096

namespace Py

/-! Group names -/
/-- group `year` -/
abbrev G.year : Nat := 100
/-- group `month` -/
abbrev G.month : Nat := 101
/-- group `num` -/
abbrev G.num : Nat := 102
/-- group `version` -/
abbrev G.version : Nat := 103
/-- group `suffix` -/
abbrev G.suffix : Nat := 104
/-- group `code` -/
abbrev G.code : Nat := 105
/-- group `title` -/
abbrev G.title : Nat := 106
/-- group `seek` -/
abbrev G.seek : Nat := 107
/-- group `repl` -/
abbrev G.repl : Nat := 108
/-- group `url` -/
abbrev G.url : Nat := 109
/-- group `desc` -/
abbrev G.desc : Nat := 110
/-- group `series` -/
abbrev G.series : Nat := 111
/-- group `vol` -/
abbrev G.vol : Nat := 112
/-- group `yr` -/
abbrev G.yr : Nat := 113
/-- group `pg` -/
abbrev G.pg : Nat := 114
/-- group `ibid` -/
abbrev G.ibid : Nat := 115
/-- group `title_tag` -/
abbrev G.title_tag : Nat := 116
/-- group `vol_num` -/
abbrev G.vol_num : Nat := 117
/-- group `vol_num_alt` -/
abbrev G.vol_num_alt : Nat := 118
/-- group `vol_num_alt2` -/
abbrev G.vol_num_alt2 : Nat := 119
/-- group `jinst_page` -/
abbrev G.jinst_page : Nat := 120
/-- group `page` -/
abbrev G.page : Nat := 121
/-- group `page_end` -/
abbrev G.page_end : Nat := 122
/-- group `aftertitle` -/
abbrev G.aftertitle : Nat := 123
/-- group `vol_sub` -/
abbrev G.vol_sub : Nat := 124
/-- group `doi` -/
abbrev G.doi : Nat := 125
/-- group `hdl_id` -/
abbrev G.hdl_id : Nat := 126
/-- group `left` -/
abbrev G.left : Nat := 127
/-- group `marknum` -/
abbrev G.marknum : Nat := 128
/-- group `right` -/
abbrev G.right : Nat := 129
/-- group `mark` -/
abbrev G.mark : Nat := 130
/-- group `volume_name` -/
abbrev G.volume_name : Nat := 131
/-- group `volume_num` -/
abbrev G.volume_num : Nat := 132
/-- group `es` -/
abbrev G.es : Nat := 133
/-- group `multi_surs` -/
abbrev G.multi_surs : Nat := 134
/-- group `et2` -/
abbrev G.et2 : Nat := 135
/-- group `sur_initial_auth` -/
abbrev G.sur_initial_auth : Nat := 136
/-- group `mult_auth_sub` -/
abbrev G.mult_auth_sub : Nat := 137
/-- group `multi_auth` -/
abbrev G.multi_auth : Nat := 138
/-- group `et` -/
abbrev G.et : Nat := 139
/-- group `author_names` -/
abbrev G.author_names : Nat := 140
/-- group `ee` -/
abbrev G.ee : Nat := 141
/-- group `name` -/
abbrev G.name : Nat := 142
/-- group `nums` -/
abbrev G.nums : Nat := 143

namespace Rx

/-- `refextract/references/regexs.py:92-98 re_arxiv` flags XI
```

    ARXIV[\s:-]*(?P<year>\d{2})-?(?P<month>\d{2})
    [\s.-]*(?P<num>\d{4})(?!\d)(?:[\s-]*V(?P<version>\d))?
    \s*(?P<suffix>\[[A-Z.-]+\])? 
```
-/
def re_arxiv : Re :=
  (Re.strI (py! "ARXIV")) ⬝ (.star true (.set ⟨false, false, [.space, .ch ':', .ch '-']⟩)) ⬝ (.group G.year (Re.times 2 (Re.digit))) ⬝ (Re.opt (Re.ch '-')) ⬝ (.group G.month (Re.times 2 (Re.digit))) ⬝ (.star true (.set ⟨false, false, [.space, .ch '.', .ch '-']⟩)) ⬝ (.group G.num (Re.times 4 (Re.digit))) ⬝ (.look true (Re.digit)) ⬝ (Re.opt ((.star true (.set ⟨false, false, [.space, .ch '-']⟩)) ⬝ (Re.chI 'V') ⬝ (.group G.version (Re.digit)))) ⬝ (.star true (Re.space)) ⬝ Re.opt (.group G.suffix ((Re.ch '[') ⬝ (Re.plus (.set ⟨false, true, [.range 'A' 'Z', .ch '.', .ch '-']⟩)) ⬝ (Re.ch ']')))

/-- `refextract/references/regexs.py:100-106 re_arxiv_5digits` flags XI
```

    ARXIV[\s:-]*(?P<year>(1[3-9]|[2-8][0-9]))-?(?P<month>(0[1-9]|1[0-2]))
    [\s.-]*(?P<num>\d{5})(?!\d)(?:[\s-]*V(?P<version>\d))?
    \s*(?P<suffix>\[[A-Z.-]+\])? 
```
-/
def re_arxiv_5digits : Re :=
  (Re.strI (py! "ARXIV")) ⬝ (.star true (.set ⟨false, false, [.space, .ch ':', .ch '-']⟩)) ⬝ (.group G.year (Re.alts [(Re.ch '1') ⬝ (.set ⟨false, false, [.range '3' '9']⟩), (.set ⟨false, false, [.range '2' '8']⟩) ⬝ (.set ⟨false, false, [.range '0' '9']⟩)])) ⬝ (Re.opt (Re.ch '-')) ⬝ (.group G.month (Re.alts [(Re.ch '0') ⬝ (.set ⟨false, false, [.range '1' '9']⟩), (Re.ch '1') ⬝ (.set ⟨false, false, [.range '0' '2']⟩)])) ⬝ (.star true (.set ⟨false, false, [.space, .ch '.', .ch '-']⟩)) ⬝ (.group G.num (Re.times 5 (Re.digit))) ⬝ (.look true (Re.digit)) ⬝ (Re.opt ((.star true (.set ⟨false, false, [.space, .ch '-']⟩)) ⬝ (Re.chI 'V') ⬝ (.group G.version (Re.digit)))) ⬝ (.star true (Re.space)) ⬝ Re.opt (.group G.suffix ((Re.ch '[') ⬝ (Re.plus (.set ⟨false, true, [.range 'A' 'Z', .ch '.', .ch '-']⟩)) ⬝ (Re.ch ']')))

/-- `refextract/references/regexs.py:110-116 RE_ARXIV_CATCHUP` flags XI
```

    ARXIV[\s:-]*(?P<year>\d{2})-?(?P<month>\d{2})
    [\s.-]*(?P<num>\d{3})
    \s*\[(?P<suffix>[A-Z.-]+)\]
```
-/
def RE_ARXIV_CATCHUP : Re :=
  (Re.strI (py! "ARXIV")) ⬝ (.star true (.set ⟨false, false, [.space, .ch ':', .ch '-']⟩)) ⬝ (.group G.year (Re.times 2 (Re.digit))) ⬝ (Re.opt (Re.ch '-')) ⬝ (.group G.month (Re.times 2 (Re.digit))) ⬝ (.star true (.set ⟨false, false, [.space, .ch '.', .ch '-']⟩)) ⬝ (.group G.num (Re.times 3 (Re.digit))) ⬝ (.star true (Re.space)) ⬝ (Re.ch '[') ⬝ (.group G.suffix (Re.plus (.set ⟨false, true, [.range 'A' 'Z', .ch '.', .ch '-']⟩))) ⬝ (Re.ch ']')

/-- `refextract/references/regexs.py:119-121 RE_ATLAS_CONF_PRE_2010`
```
(?<!\w:)ATL(AS)?-CONF-(?P<code>(?:200\d|99)-\d{3})(?![\w\d])
```
-/
def RE_ATLAS_CONF_PRE_2010 : Re :=
  (.behind true [⟨false, false, [.word]⟩, ⟨false, false, [.ch ':']⟩]) ⬝ (.str (py! "ATL")) ⬝ (Re.opt (.str (py! "AS"))) ⬝ (.str (py! "-CONF-")) ⬝ (.group G.code ((Re.alts [(.str (py! "200")) ⬝ Re.digit, .str (py! "99")]) ⬝ (Re.ch '-') ⬝ (Re.times 3 (Re.digit)))) ⬝ (.look true (.set ⟨false, false, [.word, .digit]⟩))

/-- `refextract/references/regexs.py:122-124 RE_ATLAS_CONF_POST_2010`
```
(?<!\w:)ATL(AS)?-CONF-(?P<code>20[1-9]\d-\d{3})(?![\w\d])
```
-/
def RE_ATLAS_CONF_POST_2010 : Re :=
  (.behind true [⟨false, false, [.word]⟩, ⟨false, false, [.ch ':']⟩]) ⬝ (.str (py! "ATL")) ⬝ (Re.opt (.str (py! "AS"))) ⬝ (.str (py! "-CONF-")) ⬝ (.group G.code ((.str (py! "20")) ⬝ (.set ⟨false, false, [.range '1' '9']⟩) ⬝ Re.digit ⬝ (Re.ch '-') ⬝ (Re.times 3 (Re.digit)))) ⬝ (.look true (.set ⟨false, false, [.word, .digit]⟩))

/-- `refextract/references/regexs.py:303-303 re_quoted`
```
"(?P<title>[^"]+)"
```
-/
def re_quoted : Re :=
  (Re.ch '"') ⬝ (.group G.title (Re.plus (.set ⟨true, false, [.ch '"']⟩))) ⬝ (Re.ch '"')

/-- `refextract/references/regexs.py:306-312 re_isbn` flags X
```

    (?:ISBN[-– ]*(?:|10|13)|International Standard Book Number)
    [:\s]*
    (?P<code>[-\-–0-9Xx]{10,25})
```
-/
def re_isbn : Re :=
  (Re.ch 'I') ⬝ (Re.alts [(.str (py! "SBN")) ⬝ (.star true (.set ⟨false, false, [.ch '-', .ch '\u2013', .ch ' ']⟩)) ⬝ (Re.alts [.eps, .str (py! "10"), .str (py! "13")]), .str (py! "nternationalStandardBookNumber")]) ⬝ (.star true (.set ⟨false, false, [.ch ':', .space]⟩)) ⬝ (.group G.code (Re.rep 10 25 (.set ⟨false, false, [.ch '-', .ch '\u2013', .range '0' '9', .ch 'X', .ch 'x']⟩)))

/-- `refextract/references/regexs.py:315-317 re_kb_line`
```
^\s*(?P<seek>[^\s].*)\s*---\s*(?P<repl>[^\s].*)\s*$
```
-/
def re_kb_line : Re :=
  .bos ⬝ (.star true (Re.space)) ⬝ (.group G.seek ((.set ⟨true, false, [.space]⟩) ⬝ (.star true (Re.any)))) ⬝ (.star true (Re.space)) ⬝ (.str (py! "---")) ⬝ (.star true (Re.space)) ⬝ (.group G.repl ((.set ⟨true, false, [.space]⟩) ⬝ (.star true (Re.any)))) ⬝ (.star true (Re.space)) ⬝ .eos

/-- `refextract/references/regexs.py:320-320 re_reference_in_dest`
```
^cite\.(.*)$
```
-/
def re_reference_in_dest : Re :=
  .bos ⬝ (.str (py! "cite.")) ⬝ (.group 1 (.star true (Re.any))) ⬝ .eos

/-- `refextract/references/regexs.py:323-323 re_regexp_character_class`
```
\[[^\]]+\]
```
-/
def re_regexp_character_class : Re :=
  (Re.ch '[') ⬝ (Re.plus (.set ⟨true, false, [.ch ']']⟩)) ⬝ (Re.ch ']')

/-- `refextract/references/regexs.py:324-324 re_multiple_hyphens`
```
-{2,}
```
-/
def re_multiple_hyphens : Re :=
  Re.atLeast 2 (Re.ch '-')

/-- `refextract/references/regexs.py:337-337 re_identify_bf_before_vol`
```
 bf ((\w )?: \<cds\.VOL\>)
```
-/
def re_identify_bf_before_vol : Re :=
  (.str (py! " bf ")) ⬝ .group 1 ((Re.opt (Re.word ⬝ (Re.ch ' '))) ⬝ (.str (py! ": <cds.VOL>")))

/-- `refextract/references/regexs.py:342-345 re_extract_quoted_text`
```
\"([^"]+)\"
```
-/
def re_extract_quoted_text : Re :=
  (Re.ch '"') ⬝ (.group 1 (Re.plus (.set ⟨true, false, [.ch '"']⟩))) ⬝ (Re.ch '"')

/-- `refextract/references/regexs.py:347-347 re_extract_char_class`
```
 \[([^\]]+) \]
```
-/
def re_extract_char_class : Re :=
  (.str (py! " [")) ⬝ (.group 1 (Re.plus (.set ⟨true, false, [.ch ']']⟩))) ⬝ (.str (py! " ]"))

/-- `refextract/references/regexs.py:356-358 re_raw_url` flags XI
```
['"]?(?P<url>
        (https?|s?ftp)://(?:[\w\d_.-])+(?::\d{1,5})?
        (?:/[\w\d_.?=&%~∼-]+)*/?
)['"]?
```
-/
def re_raw_url : Re :=
  (Re.opt (.set ⟨false, false, [.ch '\'', .ch '"']⟩)) ⬝ (.group G.url ((Re.alts [(Re.strI (py! "http")) ⬝ (Re.opt (Re.chI 's')), (Re.opt (Re.chI 's')) ⬝ (Re.strI (py! "ftp"))]) ⬝ (Re.strI (py! "://")) ⬝ (Re.plus (.set ⟨false, false, [.word, .digit, .ch '_', .ch '.', .ch '-']⟩)) ⬝ (Re.opt ((Re.ch ':') ⬝ (Re.rep 1 5 (Re.digit)))) ⬝ (.star true ((Re.ch '/') ⬝ (Re.plus (.set ⟨false, false, [.word, .digit, .ch '_', .ch '.', .ch '?', .ch '=', .ch '&', .ch '%', .ch '~', .ch '\u223c', .ch '-']⟩)))) ⬝ (Re.opt (Re.ch '/')))) ⬝ (Re.opt (.set ⟨false, false, [.ch '\'', .ch '"']⟩))

/-- `refextract/references/regexs.py:362-379 re_html_tagged_url` flags XI
```

    # Opening a tag
    <a\s+
    # href attribute
    href\s*=\s*[\'"]
    # href value
    (?P<url>
        (https?|s?ftp)://(?:[\w\d_.-])+(?::\d{1,5})?
        (?:/[\w\d_.?=&%~∼-]+)*/?
)
    # href closing quote
    ['"]\s*>
    # Tag content
    (?P<desc>[^\<]+)
    # Closing a tag
    </a>
```
-/
def re_html_tagged_url : Re :=
  (Re.strI (py! "<a")) ⬝ (Re.plus (Re.space)) ⬝ (Re.strI (py! "href")) ⬝ (.star true (Re.space)) ⬝ (Re.ch '=') ⬝ (.star true (Re.space)) ⬝ (.set ⟨false, false, [.ch '\'', .ch '"']⟩) ⬝ (.group G.url ((Re.alts [(Re.strI (py! "http")) ⬝ (Re.opt (Re.chI 's')), (Re.opt (Re.chI 's')) ⬝ (Re.strI (py! "ftp"))]) ⬝ (Re.strI (py! "://")) ⬝ (Re.plus (.set ⟨false, false, [.word, .digit, .ch '_', .ch '.', .ch '-']⟩)) ⬝ (Re.opt ((Re.ch ':') ⬝ (Re.rep 1 5 (Re.digit)))) ⬝ (.star true ((Re.ch '/') ⬝ (Re.plus (.set ⟨false, false, [.word, .digit, .ch '_', .ch '.', .ch '?', .ch '=', .ch '&', .ch '%', .ch '~', .ch '\u223c', .ch '-']⟩)))) ⬝ (Re.opt (Re.ch '/')))) ⬝ (.set ⟨false, false, [.ch '\'', .ch '"']⟩) ⬝ (.star true (Re.space)) ⬝ (Re.ch '>') ⬝ (.group G.desc (Re.plus (.set ⟨true, false, [.ch '<']⟩))) ⬝ (Re.strI (py! "</a>"))

/-- `refextract/references/regexs.py:388-399 re_recognised_numeration_title_plus_series`
```
^\s*[\.,]?\s*(?:Ser\.\s*)?(?P<series>(?:[A-H]|I{1,3}V?|VI{0,3}))?\s*:?\s*<cds\.VOL\>(?P<vol>[^<]+)<\/cds\.VOL>\s*(?: \<cds\.YR\>\((?P<yr>[^<]+)\)\<\/cds\.YR\>)?\s*(?: \<cds\.PG\>(?P<pg>[^<]+)\<\/cds\.PG\>)
```
-/
def re_recognised_numeration_title_plus_series : Re :=
  .bos ⬝ (.star true (Re.space)) ⬝ (Re.opt (.set ⟨false, false, [.ch '.', .ch ',']⟩)) ⬝ (.star true (Re.space)) ⬝ (Re.opt ((.str (py! "Ser.")) ⬝ (.star true (Re.space)))) ⬝ (Re.opt (.group G.series (Re.alts [.set ⟨false, false, [.range 'A' 'H']⟩, (Re.rep 1 3 (Re.ch 'I')) ⬝ (Re.opt (Re.ch 'V')), (Re.ch 'V') ⬝ (Re.rep 0 3 (Re.ch 'I'))]))) ⬝ (.star true (Re.space)) ⬝ (Re.opt (Re.ch ':')) ⬝ (.star true (Re.space)) ⬝ (.str (py! "<cds.VOL>")) ⬝ (.group G.vol (Re.plus (.set ⟨true, false, [.ch '<']⟩))) ⬝ (.str (py! "</cds.VOL>")) ⬝ (.star true (Re.space)) ⬝ (Re.opt ((.str (py! " <cds.YR>(")) ⬝ (.group G.yr (Re.plus (.set ⟨true, false, [.ch '<']⟩))) ⬝ (.str (py! ")</cds.YR>")))) ⬝ (.star true (Re.space)) ⬝ (.str (py! " <cds.PG>")) ⬝ (.group G.pg (Re.plus (.set ⟨true, false, [.ch '<']⟩))) ⬝ (.str (py! "</cds.PG>"))

/-- `refextract/references/regexs.py:406-415 re_numeration_no_ibid_txt` flags X
```

          ^((\s*;\s*|\s+and\s+)(?P<series>(?:[A-H]|I{1,3}V?|VI{0,3}))?\s*:?\s
          ## Leading ; : or " and :", and a possible series letter
          \<cds\.VOL\>(?P<vol>\d+|(?:\d+\-\d+))\<\/cds\.VOL>\s                 ## Volume
          \<cds\.YR\>\((?P<yr>[12]\d{3})\)\<\/cds\.YR\>\s                      ## year
          \<cds\.PG\>(?P<pg>[RL]?\d+[c]?)\<\/cds\.PG\>)                        ## page
          
```
-/
def re_numeration_no_ibid_txt : Re :=
  .bos ⬝ (Re.alts [(.star true (Re.space)) ⬝ (Re.ch ';') ⬝ (.star true (Re.space)), (Re.plus (Re.space)) ⬝ (.str (py! "and")) ⬝ (Re.plus (Re.space))]) ⬝ (Re.opt (.group G.series (Re.alts [.set ⟨false, false, [.range 'A' 'H']⟩, (Re.rep 1 3 (Re.ch 'I')) ⬝ (Re.opt (Re.ch 'V')), (Re.ch 'V') ⬝ (Re.rep 0 3 (Re.ch 'I'))]))) ⬝ (.star true (Re.space)) ⬝ (Re.opt (Re.ch ':')) ⬝ Re.space ⬝ (.str (py! "<cds.VOL>")) ⬝ (.group G.vol (Re.alts [Re.plus (Re.digit), (Re.plus (Re.digit)) ⬝ (Re.ch '-') ⬝ (Re.plus (Re.digit))])) ⬝ (.str (py! "</cds.VOL>")) ⬝ Re.space ⬝ (.str (py! "<cds.YR>(")) ⬝ (.group G.yr ((.set ⟨false, false, [.ch '1', .ch '2']⟩) ⬝ (Re.times 3 (Re.digit)))) ⬝ (.str (py! ")</cds.YR>")) ⬝ Re.space ⬝ (.str (py! "<cds.PG>")) ⬝ (.group G.pg ((Re.opt (.set ⟨false, false, [.ch 'R', .ch 'L']⟩)) ⬝ (Re.plus (Re.digit)) ⬝ (Re.opt (Re.ch 'c')))) ⬝ (.str (py! "</cds.PG>"))

/-- `refextract/references/regexs.py:430-430 re_punctuation`
```
[\.\,\;\'\(\)\-]
```
-/
def re_punctuation : Re :=
  .set ⟨false, false, [.ch '.', .ch ',', .ch ';', .ch '\'', .ch '(', .ch ')', .ch '-']⟩

/-- `refextract/references/regexs.py:434-455 re_tagged_citation` flags X
```

          \<cds\.                ## open tag: <cds.
          ((?:JOURNAL(?P<ibid>ibid)?)  ## a JOURNAL tag
          |VOL                   ## or a VOL tag
          |YR                    ## or a YR tag
          |PG                    ## or a PG tag
          |REPORTNUMBER          ## or a REPORTNUMBER tag
          |ARXIV                 ## or a ARXIV tag
          |SER                   ## or a SER tag
          |URL                   ## or a URL tag
          |DOI                   ## or a DOI tag
          |QUOTED                ## or a QUOTED tag
          |ISBN                  ## or a ISBN tag
          |PUBLISHER             ## or a PUBLISHER tag
          |COLLABORATION         ## or a COLLABORATION tag
          |AUTH(stnd|etal|incl)) ## or an AUTH tag
          (\s\/)?                ## optional /
          \>                     ## closing of tag (>)
          
```
-/
def re_tagged_citation : Re :=
  (.str (py! "<cds.")) ⬝ (.group 1 (Re.alts [(.str (py! "JOURNAL")) ⬝ (Re.opt (.group G.ibid (.str (py! "ibid")))), .str (py! "VOL"), .str (py! "YR"), .str (py! "PG"), .str (py! "REPORTNUMBER"), .str (py! "ARXIV"), .str (py! "SER"), .str (py! "URL"), .str (py! "DOI"), .str (py! "QUOTED"), .str (py! "ISBN"), .str (py! "PUBLISHER"), .str (py! "COLLABORATION"), (.str (py! "AUTH")) ⬝ (Re.alts [.str (py! "stnd"), .str (py! "etal"), .str (py! "incl")])])) ⬝ (Re.opt (Re.space ⬝ (Re.ch '/'))) ⬝ (Re.ch '>')

/-- `refextract/references/regexs.py:460-462 re_tagged_numeration_near_line_start`
```
^.{0,4}?<CDS (VOL|SER)>
```
-/
def re_tagged_numeration_near_line_start : Re :=
  .bos ⬝ (Re.repL 0 4 (Re.any)) ⬝ (.str (py! "<CDS ")) ⬝ (Re.alts [.str (py! "VOL"), .str (py! "SER")]) ⬝ (Re.ch '>')

/-- `refextract/references/regexs.py:464-464 re_ibid`
```
(-|\b)?IBID(EM)?\.?
```
-/
def re_ibid : Re :=
  (Re.opt (Re.alts [Re.ch '-', .wordb])) ⬝ (.str (py! "IBID")) ⬝ (Re.opt (.str (py! "EM"))) ⬝ (Re.opt (Re.ch '.'))

/-- `refextract/references/regexs.py:466-466 re_series_from_numeration`
```
^([A-Za-z])\s*[,\s:-]?\s*\d+
```
-/
def re_series_from_numeration : Re :=
  .bos ⬝ (.group 1 (.set ⟨false, false, [.range 'A' 'Z', .range 'a' 'z']⟩)) ⬝ (.star true (Re.space)) ⬝ (Re.opt (.set ⟨false, false, [.ch ',', .space, .ch ':', .ch '-']⟩)) ⬝ (.star true (Re.space)) ⬝ (Re.plus (Re.digit))

/-- `refextract/references/regexs.py:467-469 re_series_from_numeration_after_volume`
```
^\d+\s*[,\s:-]?\s*([A-Z])
```
-/
def re_series_from_numeration_after_volume : Re :=
  .bos ⬝ (Re.plus (Re.digit)) ⬝ (.star true (Re.space)) ⬝ (Re.opt (.set ⟨false, false, [.ch ',', .space, .ch ':', .ch '-']⟩)) ⬝ (.star true (Re.space)) ⬝ (.group 1 (.set ⟨false, false, [.range 'A' 'Z']⟩))

/-- `refextract/references/regexs.py:485-488 re_wash_volume_tag`
```
<cds\.VOL>(\w) (\d+)</cds\.VOL>
```
-/
def re_wash_volume_tag : Re :=
  (.str (py! "<cds.VOL>")) ⬝ (.group 1 (Re.word)) ⬝ (Re.ch ' ') ⬝ (.group 2 (Re.plus (Re.digit))) ⬝ (.str (py! "</cds.VOL>"))

/-- `refextract/references/regexs.py:586-597 re_correct_numeration_2nd_try_ptn1` flags X
```

    \(?
    (?:(?:(?:
[Jj]an|[Ff]eb|[Mm]ar|[Aa]pr|[Mm]ay|[Jj]un|
[Jj]ul|[Aa]ug|[Ss]ep|[Oo]ct|[Nn]ov|[Dd]ec
)\.?)[,\s]\s*)?  # Jul, 1980
    (?:(?:(?:
[Jj]anuary|[Ff]ebruary|[Mm]arch|[Aa]pril|[Mm]ay|[Jj]une|
[Jj]uly|[Aa]ugust|[Ss]eptember|[Oo]ctober|[Nn]ovember|[Dd]ecember
)\.?)[,\s]\s*)?        # July, 1980
    (?<!\d)
    (?P<year>[A-Za-z]?(?:19|20)\d{2})(?:[A-Za-z]?)
    (?!\d)
    \)?
\s*[,\s:-]\s*(?P<title_tag><cds\.JOURNAL>[^<]*<\/cds\.JOURNAL>)(?P<aftertitle>\s*[,\s:-]\s*\b(?:(?:[Vv]o?l?\.?|[Nn][oO°]\.?))?\s*(?<![\/\d])(?P<vol>(?:(?:[A-Za-z]\s*[,\s:-]?\s*)?(?P<vol_num>\d+|(?:(?<!\w)[XxVvIi]+(?!\w))))|(?:(?P<vol_num_alt>\d+|(?:(?<!\w)[XxVvIi]+(?!\w)))(?:[A-Za-z]))|(?:(?:[A-Za-z]\s?)?(?P<vol_num_alt2>\d+)\s*\-\s*(?:[A-Za-z]\s?)?\d+))(?:\s*\(\d{1,2}(?:-\d)?\))?\s*[,\s:-]\s*((?P<jinst_page>[pP]\d{5}\d*)|[pP]?[p]?\.?\s?(?P<page>[RL]?\w?\d+[cC]?)(?:\s*-\s*(?P<page_end>[RL]?\w?\d+[cC]?))?))
```
-/
def re_correct_numeration_2nd_try_ptn1 : Re :=
  (Re.opt (Re.ch '(')) ⬝ (Re.opt ((Re.alts [(.set ⟨false, false, [.ch 'J', .ch 'j']⟩) ⬝ (.str (py! "an")), (.set ⟨false, false, [.ch 'F', .ch 'f']⟩) ⬝ (.str (py! "eb")), (.set ⟨false, false, [.ch 'M', .ch 'm']⟩) ⬝ (.str (py! "ar")), (.set ⟨false, false, [.ch 'A', .ch 'a']⟩) ⬝ (.str (py! "pr")), (.set ⟨false, false, [.ch 'M', .ch 'm']⟩) ⬝ (.str (py! "ay")), (.set ⟨false, false, [.ch 'J', .ch 'j']⟩) ⬝ (.str (py! "un")), (.set ⟨false, false, [.ch 'J', .ch 'j']⟩) ⬝ (.str (py! "ul")), (.set ⟨false, false, [.ch 'A', .ch 'a']⟩) ⬝ (.str (py! "ug")), (.set ⟨false, false, [.ch 'S', .ch 's']⟩) ⬝ (.str (py! "ep")), (.set ⟨false, false, [.ch 'O', .ch 'o']⟩) ⬝ (.str (py! "ct")), (.set ⟨false, false, [.ch 'N', .ch 'n']⟩) ⬝ (.str (py! "ov")), (.set ⟨false, false, [.ch 'D', .ch 'd']⟩) ⬝ (.str (py! "ec"))]) ⬝ (Re.opt (Re.ch '.')) ⬝ (.set ⟨false, false, [.ch ',', .space]⟩) ⬝ (.star true (Re.space)))) ⬝ (Re.opt ((Re.alts [(.set ⟨false, false, [.ch 'J', .ch 'j']⟩) ⬝ (.str (py! "anuary")), (.set ⟨false, false, [.ch 'F', .ch 'f']⟩) ⬝ (.str (py! "ebruary")), (.set ⟨false, false, [.ch 'M', .ch 'm']⟩) ⬝ (.str (py! "arch")), (.set ⟨false, false, [.ch 'A', .ch 'a']⟩) ⬝ (.str (py! "pril")), (.set ⟨false, false, [.ch 'M', .ch 'm']⟩) ⬝ (.str (py! "ay")), (.set ⟨false, false, [.ch 'J', .ch 'j']⟩) ⬝ (.str (py! "une")), (.set ⟨false, false, [.ch 'J', .ch 'j']⟩) ⬝ (.str (py! "uly")), (.set ⟨false, false, [.ch 'A', .ch 'a']⟩) ⬝ (.str (py! "ugust")), (.set ⟨false, false, [.ch 'S', .ch 's']⟩) ⬝ (.str (py! "eptember")), (.set ⟨false, false, [.ch 'O', .ch 'o']⟩) ⬝ (.str (py! "ctober")), (.set ⟨false, false, [.ch 'N', .ch 'n']⟩) ⬝ (.str (py! "ovember")), (.set ⟨false, false, [.ch 'D', .ch 'd']⟩) ⬝ (.str (py! "ecember"))]) ⬝ (Re.opt (Re.ch '.')) ⬝ (.set ⟨false, false, [.ch ',', .space]⟩) ⬝ (.star true (Re.space)))) ⬝ (.behind true [⟨false, false, [.digit]⟩]) ⬝ (.group G.year ((Re.opt (.set ⟨false, false, [.range 'A' 'Z', .range 'a' 'z']⟩)) ⬝ (Re.alts [.str (py! "19"), .str (py! "20")]) ⬝ (Re.times 2 (Re.digit)))) ⬝ (Re.opt (.set ⟨false, false, [.range 'A' 'Z', .range 'a' 'z']⟩)) ⬝ (.look true (Re.digit)) ⬝ (Re.opt (Re.ch ')')) ⬝ (.star true (Re.space)) ⬝ (.set ⟨false, false, [.ch ',', .space, .ch ':', .ch '-']⟩) ⬝ (.star true (Re.space)) ⬝ (.group G.title_tag ((.str (py! "<cds.JOURNAL>")) ⬝ (.star true (.set ⟨true, false, [.ch '<']⟩)) ⬝ (.str (py! "</cds.JOURNAL>")))) ⬝ .group G.aftertitle ((.star true (Re.space)) ⬝ (.set ⟨false, false, [.ch ',', .space, .ch ':', .ch '-']⟩) ⬝ (.star true (Re.space)) ⬝ .wordb ⬝ (Re.opt (Re.alts [(.set ⟨false, false, [.ch 'V', .ch 'v']⟩) ⬝ (Re.opt (Re.ch 'o')) ⬝ (Re.opt (Re.ch 'l')) ⬝ (Re.opt (Re.ch '.')), (.set ⟨false, false, [.ch 'N', .ch 'n']⟩) ⬝ (.set ⟨false, false, [.ch 'o', .ch 'O', .ch '\u00b0']⟩) ⬝ (Re.opt (Re.ch '.'))])) ⬝ (.star true (Re.space)) ⬝ (.behind true [⟨false, false, [.ch '/', .digit]⟩]) ⬝ (.group G.vol (Re.alts [(Re.opt ((.set ⟨false, false, [.range 'A' 'Z', .range 'a' 'z']⟩) ⬝ (.star true (Re.space)) ⬝ (Re.opt (.set ⟨false, false, [.ch ',', .space, .ch ':', .ch '-']⟩)) ⬝ (.star true (Re.space)))) ⬝ .group G.vol_num (Re.alts [Re.plus (Re.digit), (.behind true [⟨false, false, [.word]⟩]) ⬝ (Re.plus (.set ⟨false, false, [.ch 'X', .ch 'x', .ch 'V', .ch 'v', .ch 'I', .ch 'i']⟩)) ⬝ (.look true (Re.word))]), (.group G.vol_num_alt (Re.alts [Re.plus (Re.digit), (.behind true [⟨false, false, [.word]⟩]) ⬝ (Re.plus (.set ⟨false, false, [.ch 'X', .ch 'x', .ch 'V', .ch 'v', .ch 'I', .ch 'i']⟩)) ⬝ (.look true (Re.word))])) ⬝ (.set ⟨false, false, [.range 'A' 'Z', .range 'a' 'z']⟩), (Re.opt ((.set ⟨false, false, [.range 'A' 'Z', .range 'a' 'z']⟩) ⬝ (Re.opt (Re.space)))) ⬝ (.group G.vol_num_alt2 (Re.plus (Re.digit))) ⬝ (.star true (Re.space)) ⬝ (Re.ch '-') ⬝ (.star true (Re.space)) ⬝ (Re.opt ((.set ⟨false, false, [.range 'A' 'Z', .range 'a' 'z']⟩) ⬝ (Re.opt (Re.space)))) ⬝ (Re.plus (Re.digit))])) ⬝ (Re.opt ((.star true (Re.space)) ⬝ (Re.ch '(') ⬝ (Re.rep 1 2 (Re.digit)) ⬝ (Re.opt ((Re.ch '-') ⬝ Re.digit)) ⬝ (Re.ch ')'))) ⬝ (.star true (Re.space)) ⬝ (.set ⟨false, false, [.ch ',', .space, .ch ':', .ch '-']⟩) ⬝ (.star true (Re.space)) ⬝ Re.alts [.group G.jinst_page ((.set ⟨false, false, [.ch 'p', .ch 'P']⟩) ⬝ (Re.times 5 (Re.digit)) ⬝ (.star true (Re.digit))), (Re.opt (.set ⟨false, false, [.ch 'p', .ch 'P']⟩)) ⬝ (Re.opt (Re.ch 'p')) ⬝ (Re.opt (Re.ch '.')) ⬝ (Re.opt (Re.space)) ⬝ (.group G.page ((Re.opt (.set ⟨false, false, [.ch 'R', .ch 'L']⟩)) ⬝ (Re.opt (Re.word)) ⬝ (Re.plus (Re.digit)) ⬝ (Re.opt (.set ⟨false, false, [.ch 'c', .ch 'C']⟩)))) ⬝ Re.opt ((.star true (Re.space)) ⬝ (Re.ch '-') ⬝ (.star true (Re.space)) ⬝ .group G.page_end ((Re.opt (.set ⟨false, false, [.ch 'R', .ch 'L']⟩)) ⬝ (Re.opt (Re.word)) ⬝ (Re.plus (Re.digit)) ⬝ (Re.opt (.set ⟨false, false, [.ch 'c', .ch 'C']⟩))))])

/-- `refextract/references/regexs.py:599-612 re_correct_numeration_2nd_try_ptn2` flags X
```

    \(?
    (?:(?:(?:
[Jj]an|[Ff]eb|[Mm]ar|[Aa]pr|[Mm]ay|[Jj]un|
[Jj]ul|[Aa]ug|[Ss]ep|[Oo]ct|[Nn]ov|[Dd]ec
)\.?)[,\s]\s*)?  # Jul, 1980
    (?:(?:(?:
[Jj]anuary|[Ff]ebruary|[Mm]arch|[Aa]pril|[Mm]ay|[Jj]une|
[Jj]uly|[Aa]ugust|[Ss]eptember|[Oo]ctober|[Nn]ovember|[Dd]ecember
)\.?)[,\s]\s*)?        # July, 1980
    (?<!\d)
    (?P<year>[A-Za-z]?(?:19|20)\d{2})(?:[A-Za-z]?)
    (?!\d)
    \)?
\s*[,\s:-]\s*(?P<title_tag><cds\.JOURNAL>[^<]*<\/cds\.JOURNAL>)(?P<aftertitle>\s*[,\s:-]\s*\b(?:(?:[Vv]o?l?\.?|[Nn][oO°]\.?))?\s*(?<![\/\d])(?P<vol>(?:(?:[A-Za-z]\s*[,\s:-]?\s*)?(?P<vol_num>\d+|(?:(?<!\w)[XxVvIi]+(?!\w))))|(?:(?P<vol_num_alt>\d+|(?:(?<!\w)[XxVvIi]+(?!\w)))(?:[A-Za-z]))|(?:(?:[A-Za-z]\s?)?(?P<vol_num_alt2>\d+)\s*\-\s*(?:[A-Za-z]\s?)?\d+))(?:\s*\(\d{1,2}(?:-\d)?\))?\s*[,\s:-]\s*(?P<series>[A-H])\s*[,\s:-]\s*((?P<jinst_page>[pP]\d{5}\d*)|[pP]?[p]?\.?\s?(?P<page>[RL]?\w?\d+[cC]?)(?:\s*-\s*(?P<page_end>[RL]?\w?\d+[cC]?))?))
```
-/
def re_correct_numeration_2nd_try_ptn2 : Re :=
  (Re.opt (Re.ch '(')) ⬝ (Re.opt ((Re.alts [(.set ⟨false, false, [.ch 'J', .ch 'j']⟩) ⬝ (.str (py! "an")), (.set ⟨false, false, [.ch 'F', .ch 'f']⟩) ⬝ (.str (py! "eb")), (.set ⟨false, false, [.ch 'M', .ch 'm']⟩) ⬝ (.str (py! "ar")), (.set ⟨false, false, [.ch 'A', .ch 'a']⟩) ⬝ (.str (py! "pr")), (.set ⟨false, false, [.ch 'M', .ch 'm']⟩) ⬝ (.str (py! "ay")), (.set ⟨false, false, [.ch 'J', .ch 'j']⟩) ⬝ (.str (py! "un")), (.set ⟨false, false, [.ch 'J', .ch 'j']⟩) ⬝ (.str (py! "ul")), (.set ⟨false, false, [.ch 'A', .ch 'a']⟩) ⬝ (.str (py! "ug")), (.set ⟨false, false, [.ch 'S', .ch 's']⟩) ⬝ (.str (py! "ep")), (.set ⟨false, false, [.ch 'O', .ch 'o']⟩) ⬝ (.str (py! "ct")), (.set ⟨false, false, [.ch 'N', .ch 'n']⟩) ⬝ (.str (py! "ov")), (.set ⟨false, false, [.ch 'D', .ch 'd']⟩) ⬝ (.str (py! "ec"))]) ⬝ (Re.opt (Re.ch '.')) ⬝ (.set ⟨false, false, [.ch ',', .space]⟩) ⬝ (.star true (Re.space)))) ⬝ (Re.opt ((Re.alts [(.set ⟨false, false, [.ch 'J', .ch 'j']⟩) ⬝ (.str (py! "anuary")), (.set ⟨false, false, [.ch 'F', .ch 'f']⟩) ⬝ (.str (py! "ebruary")), (.set ⟨false, false, [.ch 'M', .ch 'm']⟩) ⬝ (.str (py! "arch")), (.set ⟨false, false, [.ch 'A', .ch 'a']⟩) ⬝ (.str (py! "pril")), (.set ⟨false, false, [.ch 'M', .ch 'm']⟩) ⬝ (.str (py! "ay")), (.set ⟨false, false, [.ch 'J', .ch 'j']⟩) ⬝ (.str (py! "une")), (.set ⟨false, false, [.ch 'J', .ch 'j']⟩) ⬝ (.str (py! "uly")), (.set ⟨false, false, [.ch 'A', .ch 'a']⟩) ⬝ (.str (py! "ugust")), (.set ⟨false, false, [.ch 'S', .ch 's']⟩) ⬝ (.str (py! "eptember")), (.set ⟨false, false, [.ch 'O', .ch 'o']⟩) ⬝ (.str (py! "ctober")), (.set ⟨false, false, [.ch 'N', .ch 'n']⟩) ⬝ (.str (py! "ovember")), (.set ⟨false, false, [.ch 'D', .ch 'd']⟩) ⬝ (.str (py! "ecember"))]) ⬝ (Re.opt (Re.ch '.')) ⬝ (.set ⟨false, false, [.ch ',', .space]⟩) ⬝ (.star true (Re.space)))) ⬝ (.behind true [⟨false, false, [.digit]⟩]) ⬝ (.group G.year ((Re.opt (.set ⟨false, false, [.range 'A' 'Z', .range 'a' 'z']⟩)) ⬝ (Re.alts [.str (py! "19"), .str (py! "20")]) ⬝ (Re.times 2 (Re.digit)))) ⬝ (Re.opt (.set ⟨false, false, [.range 'A' 'Z', .range 'a' 'z']⟩)) ⬝ (.look true (Re.digit)) ⬝ (Re.opt (Re.ch ')')) ⬝ (.star true (Re.space)) ⬝ (.set ⟨false, false, [.ch ',', .space, .ch ':', .ch '-']⟩) ⬝ (.star true (Re.space)) ⬝ (.group G.title_tag ((.str (py! "<cds.JOURNAL>")) ⬝ (.star true (.set ⟨true, false, [.ch '<']⟩)) ⬝ (.str (py! "</cds.JOURNAL>")))) ⬝ .group G.aftertitle ((.star true (Re.space)) ⬝ (.set ⟨false, false, [.ch ',', .space, .ch ':', .ch '-']⟩) ⬝ (.star true (Re.space)) ⬝ .wordb ⬝ (Re.opt (Re.alts [(.set ⟨false, false, [.ch 'V', .ch 'v']⟩) ⬝ (Re.opt (Re.ch 'o')) ⬝ (Re.opt (Re.ch 'l')) ⬝ (Re.opt (Re.ch '.')), (.set ⟨false, false, [.ch 'N', .ch 'n']⟩) ⬝ (.set ⟨false, false, [.ch 'o', .ch 'O', .ch '\u00b0']⟩) ⬝ (Re.opt (Re.ch '.'))])) ⬝ (.star true (Re.space)) ⬝ (.behind true [⟨false, false, [.ch '/', .digit]⟩]) ⬝ (.group G.vol (Re.alts [(Re.opt ((.set ⟨false, false, [.range 'A' 'Z', .range 'a' 'z']⟩) ⬝ (.star true (Re.space)) ⬝ (Re.opt (.set ⟨false, false, [.ch ',', .space, .ch ':', .ch '-']⟩)) ⬝ (.star true (Re.space)))) ⬝ .group G.vol_num (Re.alts [Re.plus (Re.digit), (.behind true [⟨false, false, [.word]⟩]) ⬝ (Re.plus (.set ⟨false, false, [.ch 'X', .ch 'x', .ch 'V', .ch 'v', .ch 'I', .ch 'i']⟩)) ⬝ (.look true (Re.word))]), (.group G.vol_num_alt (Re.alts [Re.plus (Re.digit), (.behind true [⟨false, false, [.word]⟩]) ⬝ (Re.plus (.set ⟨false, false, [.ch 'X', .ch 'x', .ch 'V', .ch 'v', .ch 'I', .ch 'i']⟩)) ⬝ (.look true (Re.word))])) ⬝ (.set ⟨false, false, [.range 'A' 'Z', .range 'a' 'z']⟩), (Re.opt ((.set ⟨false, false, [.range 'A' 'Z', .range 'a' 'z']⟩) ⬝ (Re.opt (Re.space)))) ⬝ (.group G.vol_num_alt2 (Re.plus (Re.digit))) ⬝ (.star true (Re.space)) ⬝ (Re.ch '-') ⬝ (.star true (Re.space)) ⬝ (Re.opt ((.set ⟨false, false, [.range 'A' 'Z', .range 'a' 'z']⟩) ⬝ (Re.opt (Re.space)))) ⬝ (Re.plus (Re.digit))])) ⬝ (Re.opt ((.star true (Re.space)) ⬝ (Re.ch '(') ⬝ (Re.rep 1 2 (Re.digit)) ⬝ (Re.opt ((Re.ch '-') ⬝ Re.digit)) ⬝ (Re.ch ')'))) ⬝ (.star true (Re.space)) ⬝ (.set ⟨false, false, [.ch ',', .space, .ch ':', .ch '-']⟩) ⬝ (.star true (Re.space)) ⬝ (.group G.series (.set ⟨false, false, [.range 'A' 'H']⟩)) ⬝ (.star true (Re.space)) ⬝ (.set ⟨false, false, [.ch ',', .space, .ch ':', .ch '-']⟩) ⬝ (.star true (Re.space)) ⬝ Re.alts [.group G.jinst_page ((.set ⟨false, false, [.ch 'p', .ch 'P']⟩) ⬝ (Re.times 5 (Re.digit)) ⬝ (.star true (Re.digit))), (Re.opt (.set ⟨false, false, [.ch 'p', .ch 'P']⟩)) ⬝ (Re.opt (Re.ch 'p')) ⬝ (Re.opt (Re.ch '.')) ⬝ (Re.opt (Re.space)) ⬝ (.group G.page ((Re.opt (.set ⟨false, false, [.ch 'R', .ch 'L']⟩)) ⬝ (Re.opt (Re.word)) ⬝ (Re.plus (Re.digit)) ⬝ (Re.opt (.set ⟨false, false, [.ch 'c', .ch 'C']⟩)))) ⬝ Re.opt ((.star true (Re.space)) ⬝ (Re.ch '-') ⬝ (.star true (Re.space)) ⬝ .group G.page_end ((Re.opt (.set ⟨false, false, [.ch 'R', .ch 'L']⟩)) ⬝ (Re.opt (Re.word)) ⬝ (Re.plus (Re.digit)) ⬝ (Re.opt (.set ⟨false, false, [.ch 'c', .ch 'C']⟩))))])

/-- `refextract/references/regexs.py:614-623 re_correct_numeration_2nd_try_ptn3` flags X
```
(?P<title_tag><cds\.JOURNAL>[^<]*<\/cds\.JOURNAL>)(?P<aftertitle>\s*[,\s:-]\s*\b(?:(?:[Vv]o?l?\.?|[Nn][oO°]\.?))?\s*(?<![\/\d])(?P<vol>(?:(?:[A-Za-z]\s*[,\s:-]?\s*)?(?P<vol_num>\d+|(?:(?<!\w)[XxVvIi]+(?!\w))))|(?:(?P<vol_num_alt>\d+|(?:(?<!\w)[XxVvIi]+(?!\w)))(?:[A-Za-z]))|(?:(?:[A-Za-z]\s?)?(?P<vol_num_alt2>\d+)\s*\-\s*(?:[A-Za-z]\s?)?\d+))(?:\s*\(\d{1,2}(?:-\d)?\))?\s*[,\s:-]\s*((?P<jinst_page>[pP]\d{5}\d*)|[pP]?[p]?\.?\s?(?P<page>[RL]?\w?\d+[cC]?)(?:\s*-\s*(?P<page_end>[RL]?\w?\d+[cC]?))?))
```
-/
def re_correct_numeration_2nd_try_ptn3 : Re :=
  (.group G.title_tag ((.str (py! "<cds.JOURNAL>")) ⬝ (.star true (.set ⟨true, false, [.ch '<']⟩)) ⬝ (.str (py! "</cds.JOURNAL>")))) ⬝ .group G.aftertitle ((.star true (Re.space)) ⬝ (.set ⟨false, false, [.ch ',', .space, .ch ':', .ch '-']⟩) ⬝ (.star true (Re.space)) ⬝ .wordb ⬝ (Re.opt (Re.alts [(.set ⟨false, false, [.ch 'V', .ch 'v']⟩) ⬝ (Re.opt (Re.ch 'o')) ⬝ (Re.opt (Re.ch 'l')) ⬝ (Re.opt (Re.ch '.')), (.set ⟨false, false, [.ch 'N', .ch 'n']⟩) ⬝ (.set ⟨false, false, [.ch 'o', .ch 'O', .ch '\u00b0']⟩) ⬝ (Re.opt (Re.ch '.'))])) ⬝ (.star true (Re.space)) ⬝ (.behind true [⟨false, false, [.ch '/', .digit]⟩]) ⬝ (.group G.vol (Re.alts [(Re.opt ((.set ⟨false, false, [.range 'A' 'Z', .range 'a' 'z']⟩) ⬝ (.star true (Re.space)) ⬝ (Re.opt (.set ⟨false, false, [.ch ',', .space, .ch ':', .ch '-']⟩)) ⬝ (.star true (Re.space)))) ⬝ .group G.vol_num (Re.alts [Re.plus (Re.digit), (.behind true [⟨false, false, [.word]⟩]) ⬝ (Re.plus (.set ⟨false, false, [.ch 'X', .ch 'x', .ch 'V', .ch 'v', .ch 'I', .ch 'i']⟩)) ⬝ (.look true (Re.word))]), (.group G.vol_num_alt (Re.alts [Re.plus (Re.digit), (.behind true [⟨false, false, [.word]⟩]) ⬝ (Re.plus (.set ⟨false, false, [.ch 'X', .ch 'x', .ch 'V', .ch 'v', .ch 'I', .ch 'i']⟩)) ⬝ (.look true (Re.word))])) ⬝ (.set ⟨false, false, [.range 'A' 'Z', .range 'a' 'z']⟩), (Re.opt ((.set ⟨false, false, [.range 'A' 'Z', .range 'a' 'z']⟩) ⬝ (Re.opt (Re.space)))) ⬝ (.group G.vol_num_alt2 (Re.plus (Re.digit))) ⬝ (.star true (Re.space)) ⬝ (Re.ch '-') ⬝ (.star true (Re.space)) ⬝ (Re.opt ((.set ⟨false, false, [.range 'A' 'Z', .range 'a' 'z']⟩) ⬝ (Re.opt (Re.space)))) ⬝ (Re.plus (Re.digit))])) ⬝ (Re.opt ((.star true (Re.space)) ⬝ (Re.ch '(') ⬝ (Re.rep 1 2 (Re.digit)) ⬝ (Re.opt ((Re.ch '-') ⬝ Re.digit)) ⬝ (Re.ch ')'))) ⬝ (.star true (Re.space)) ⬝ (.set ⟨false, false, [.ch ',', .space, .ch ':', .ch '-']⟩) ⬝ (.star true (Re.space)) ⬝ Re.alts [.group G.jinst_page ((.set ⟨false, false, [.ch 'p', .ch 'P']⟩) ⬝ (Re.times 5 (Re.digit)) ⬝ (.star true (Re.digit))), (Re.opt (.set ⟨false, false, [.ch 'p', .ch 'P']⟩)) ⬝ (Re.opt (Re.ch 'p')) ⬝ (Re.opt (Re.ch '.')) ⬝ (Re.opt (Re.space)) ⬝ (.group G.page ((Re.opt (.set ⟨false, false, [.ch 'R', .ch 'L']⟩)) ⬝ (Re.opt (Re.word)) ⬝ (Re.plus (Re.digit)) ⬝ (Re.opt (.set ⟨false, false, [.ch 'c', .ch 'C']⟩)))) ⬝ Re.opt ((.star true (Re.space)) ⬝ (Re.ch '-') ⬝ (.star true (Re.space)) ⬝ .group G.page_end ((Re.opt (.set ⟨false, false, [.ch 'R', .ch 'L']⟩)) ⬝ (Re.opt (Re.word)) ⬝ (Re.plus (Re.digit)) ⬝ (Re.opt (.set ⟨false, false, [.ch 'c', .ch 'C']⟩))))])

/-- `refextract/references/regexs.py:626-637 re_correct_numeration_2nd_try_ptn4` flags X
```
(?P<title_tag><cds\.JOURNAL>[^<]*<\/cds\.JOURNAL>)(?P<aftertitle>\s*[,\s:-]\s*
    \(?
    (?:(?:(?:
[Jj]an|[Ff]eb|[Mm]ar|[Aa]pr|[Mm]ay|[Jj]un|
[Jj]ul|[Aa]ug|[Ss]ep|[Oo]ct|[Nn]ov|[Dd]ec
)\.?)[,\s]\s*)?  # Jul, 1980
    (?:(?:(?:
[Jj]anuary|[Ff]ebruary|[Mm]arch|[Aa]pril|[Mm]ay|[Jj]une|
[Jj]uly|[Aa]ugust|[Ss]eptember|[Oo]ctober|[Nn]ovember|[Dd]ecember
)\.?)[,\s]\s*)?        # July, 1980
    (?<!\d)
    (?P<year>[A-Za-z]?(?:19|20)\d{2})(?:[A-Za-z]?)
    (?!\d)
    \)?
\s*[.,\s:]\s*\b(?:(?:[Vv]o?l?\.?|[Nn][oO°]\.?))?\s*(?<![\/\d])(?P<vol>(?:(?:[A-Za-z]\s*[,\s:-]?\s*)?(?P<vol_num>\d+|(?:(?<!\w)[XxVvIi]+(?!\w))))|(?:(?P<vol_num_alt>\d+|(?:(?<!\w)[XxVvIi]+(?!\w)))(?:[A-Za-z]))|(?:(?:[A-Za-z]\s?)?(?P<vol_num_alt2>\d+)\s*\-\s*(?:[A-Za-z]\s?)?\d+))(?:\s*\(\d{1,2}(?:-\d)?\))?\s*[,\s:-]\s*((?P<jinst_page>[pP]\d{5}\d*)|[pP]?[p]?\.?\s?(?P<page>[RL]?\w?\d+[cC]?)(?:\s*-\s*(?P<page_end>[RL]?\w?\d+[cC]?))?))
```
-/
def re_correct_numeration_2nd_try_ptn4 : Re :=
  (.group G.title_tag ((.str (py! "<cds.JOURNAL>")) ⬝ (.star true (.set ⟨true, false, [.ch '<']⟩)) ⬝ (.str (py! "</cds.JOURNAL>")))) ⬝ .group G.aftertitle ((.star true (Re.space)) ⬝ (.set ⟨false, false, [.ch ',', .space, .ch ':', .ch '-']⟩) ⬝ (.star true (Re.space)) ⬝ (Re.opt (Re.ch '(')) ⬝ (Re.opt ((Re.alts [(.set ⟨false, false, [.ch 'J', .ch 'j']⟩) ⬝ (.str (py! "an")), (.set ⟨false, false, [.ch 'F', .ch 'f']⟩) ⬝ (.str (py! "eb")), (.set ⟨false, false, [.ch 'M', .ch 'm']⟩) ⬝ (.str (py! "ar")), (.set ⟨false, false, [.ch 'A', .ch 'a']⟩) ⬝ (.str (py! "pr")), (.set ⟨false, false, [.ch 'M', .ch 'm']⟩) ⬝ (.str (py! "ay")), (.set ⟨false, false, [.ch 'J', .ch 'j']⟩) ⬝ (.str (py! "un")), (.set ⟨false, false, [.ch 'J', .ch 'j']⟩) ⬝ (.str (py! "ul")), (.set ⟨false, false, [.ch 'A', .ch 'a']⟩) ⬝ (.str (py! "ug")), (.set ⟨false, false, [.ch 'S', .ch 's']⟩) ⬝ (.str (py! "ep")), (.set ⟨false, false, [.ch 'O', .ch 'o']⟩) ⬝ (.str (py! "ct")), (.set ⟨false, false, [.ch 'N', .ch 'n']⟩) ⬝ (.str (py! "ov")), (.set ⟨false, false, [.ch 'D', .ch 'd']⟩) ⬝ (.str (py! "ec"))]) ⬝ (Re.opt (Re.ch '.')) ⬝ (.set ⟨false, false, [.ch ',', .space]⟩) ⬝ (.star true (Re.space)))) ⬝ (Re.opt ((Re.alts [(.set ⟨false, false, [.ch 'J', .ch 'j']⟩) ⬝ (.str (py! "anuary")), (.set ⟨false, false, [.ch 'F', .ch 'f']⟩) ⬝ (.str (py! "ebruary")), (.set ⟨false, false, [.ch 'M', .ch 'm']⟩) ⬝ (.str (py! "arch")), (.set ⟨false, false, [.ch 'A', .ch 'a']⟩) ⬝ (.str (py! "pril")), (.set ⟨false, false, [.ch 'M', .ch 'm']⟩) ⬝ (.str (py! "ay")), (.set ⟨false, false, [.ch 'J', .ch 'j']⟩) ⬝ (.str (py! "une")), (.set ⟨false, false, [.ch 'J', .ch 'j']⟩) ⬝ (.str (py! "uly")), (.set ⟨false, false, [.ch 'A', .ch 'a']⟩) ⬝ (.str (py! "ugust")), (.set ⟨false, false, [.ch 'S', .ch 's']⟩) ⬝ (.str (py! "eptember")), (.set ⟨false, false, [.ch 'O', .ch 'o']⟩) ⬝ (.str (py! "ctober")), (.set ⟨false, false, [.ch 'N', .ch 'n']⟩) ⬝ (.str (py! "ovember")), (.set ⟨false, false, [.ch 'D', .ch 'd']⟩) ⬝ (.str (py! "ecember"))]) ⬝ (Re.opt (Re.ch '.')) ⬝ (.set ⟨false, false, [.ch ',', .space]⟩) ⬝ (.star true (Re.space)))) ⬝ (.behind true [⟨false, false, [.digit]⟩]) ⬝ (.group G.year ((Re.opt (.set ⟨false, false, [.range 'A' 'Z', .range 'a' 'z']⟩)) ⬝ (Re.alts [.str (py! "19"), .str (py! "20")]) ⬝ (Re.times 2 (Re.digit)))) ⬝ (Re.opt (.set ⟨false, false, [.range 'A' 'Z', .range 'a' 'z']⟩)) ⬝ (.look true (Re.digit)) ⬝ (Re.opt (Re.ch ')')) ⬝ (.star true (Re.space)) ⬝ (.set ⟨false, false, [.ch '.', .ch ',', .space, .ch ':']⟩) ⬝ (.star true (Re.space)) ⬝ .wordb ⬝ (Re.opt (Re.alts [(.set ⟨false, false, [.ch 'V', .ch 'v']⟩) ⬝ (Re.opt (Re.ch 'o')) ⬝ (Re.opt (Re.ch 'l')) ⬝ (Re.opt (Re.ch '.')), (.set ⟨false, false, [.ch 'N', .ch 'n']⟩) ⬝ (.set ⟨false, false, [.ch 'o', .ch 'O', .ch '\u00b0']⟩) ⬝ (Re.opt (Re.ch '.'))])) ⬝ (.star true (Re.space)) ⬝ (.behind true [⟨false, false, [.ch '/', .digit]⟩]) ⬝ (.group G.vol (Re.alts [(Re.opt ((.set ⟨false, false, [.range 'A' 'Z', .range 'a' 'z']⟩) ⬝ (.star true (Re.space)) ⬝ (Re.opt (.set ⟨false, false, [.ch ',', .space, .ch ':', .ch '-']⟩)) ⬝ (.star true (Re.space)))) ⬝ .group G.vol_num (Re.alts [Re.plus (Re.digit), (.behind true [⟨false, false, [.word]⟩]) ⬝ (Re.plus (.set ⟨false, false, [.ch 'X', .ch 'x', .ch 'V', .ch 'v', .ch 'I', .ch 'i']⟩)) ⬝ (.look true (Re.word))]), (.group G.vol_num_alt (Re.alts [Re.plus (Re.digit), (.behind true [⟨false, false, [.word]⟩]) ⬝ (Re.plus (.set ⟨false, false, [.ch 'X', .ch 'x', .ch 'V', .ch 'v', .ch 'I', .ch 'i']⟩)) ⬝ (.look true (Re.word))])) ⬝ (.set ⟨false, false, [.range 'A' 'Z', .range 'a' 'z']⟩), (Re.opt ((.set ⟨false, false, [.range 'A' 'Z', .range 'a' 'z']⟩) ⬝ (Re.opt (Re.space)))) ⬝ (.group G.vol_num_alt2 (Re.plus (Re.digit))) ⬝ (.star true (Re.space)) ⬝ (Re.ch '-') ⬝ (.star true (Re.space)) ⬝ (Re.opt ((.set ⟨false, false, [.range 'A' 'Z', .range 'a' 'z']⟩) ⬝ (Re.opt (Re.space)))) ⬝ (Re.plus (Re.digit))])) ⬝ (Re.opt ((.star true (Re.space)) ⬝ (Re.ch '(') ⬝ (Re.rep 1 2 (Re.digit)) ⬝ (Re.opt ((Re.ch '-') ⬝ Re.digit)) ⬝ (Re.ch ')'))) ⬝ (.star true (Re.space)) ⬝ (.set ⟨false, false, [.ch ',', .space, .ch ':', .ch '-']⟩) ⬝ (.star true (Re.space)) ⬝ Re.alts [.group G.jinst_page ((.set ⟨false, false, [.ch 'p', .ch 'P']⟩) ⬝ (Re.times 5 (Re.digit)) ⬝ (.star true (Re.digit))), (Re.opt (.set ⟨false, false, [.ch 'p', .ch 'P']⟩)) ⬝ (Re.opt (Re.ch 'p')) ⬝ (Re.opt (Re.ch '.')) ⬝ (Re.opt (Re.space)) ⬝ (.group G.page ((Re.opt (.set ⟨false, false, [.ch 'R', .ch 'L']⟩)) ⬝ (Re.opt (Re.word)) ⬝ (Re.plus (Re.digit)) ⬝ (Re.opt (.set ⟨false, false, [.ch 'c', .ch 'C']⟩)))) ⬝ Re.opt ((.star true (Re.space)) ⬝ (Re.ch '-') ⬝ (.star true (Re.space)) ⬝ .group G.page_end ((Re.opt (.set ⟨false, false, [.ch 'R', .ch 'L']⟩)) ⬝ (Re.opt (Re.word)) ⬝ (Re.plus (Re.digit)) ⬝ (Re.opt (.set ⟨false, false, [.ch 'c', .ch 'C']⟩))))])

/-- `refextract/references/regexs.py:645-651 re_strip_series_and_volume_labels`
```
(Serie\s|\bS\.?\s)?([A-H])\s?[:,]\s?(\b[Vv]o?l?\.?|\b[Nn]o\.?)?\s?(\d+)
```
-/
def re_strip_series_and_volume_labels : Re :=
  (Re.opt (Re.alts [(.str (py! "Serie")) ⬝ Re.space, .wordb ⬝ (Re.ch 'S') ⬝ (Re.opt (Re.ch '.')) ⬝ Re.space])) ⬝ (.group 2 (.set ⟨false, false, [.range 'A' 'H']⟩)) ⬝ (Re.opt (Re.space)) ⬝ (.set ⟨false, false, [.ch ':', .ch ',']⟩) ⬝ (Re.opt (Re.space)) ⬝ (Re.opt (.wordb ⬝ Re.alts [(.set ⟨false, false, [.ch 'V', .ch 'v']⟩) ⬝ (Re.opt (Re.ch 'o')) ⬝ (Re.opt (Re.ch 'l')) ⬝ (Re.opt (Re.ch '.')), (.set ⟨false, false, [.ch 'N', .ch 'n']⟩) ⬝ (Re.ch 'o') ⬝ (Re.opt (Re.ch '.'))])) ⬝ (Re.opt (Re.space)) ⬝ (.group 4 (Re.plus (Re.digit)))

/-- `refextract/references/regexs.py:665-674 re_numeration_vol_page_yr` flags X
```
\s*[,\s:-]?\s*\b(?:(?:[Vv]o?l?\.?|[Nn][oO°]\.?))?\s*(?<![\/\d])(?P<vol>(?:(?:[A-Za-z]\s*[,\s:-]?\s*)?(?P<vol_num>\d+|(?:(?<!\w)[XxVvIi]+(?!\w))))|(?:(?P<vol_num_alt>\d+|(?:(?<!\w)[XxVvIi]+(?!\w)))(?:[A-Za-z]))|(?:(?:[A-Za-z]\s?)?(?P<vol_num_alt2>\d+)\s*\-\s*(?:[A-Za-z]\s?)?\d+))(?:\s*\(\d{1,2}(?:-\d)?\))?(?:\s*[,\s:-]\s*(?P<vol_sub>[Nn][oO°]\.?\s*\d{1,6}))?\s*[,\s:-]\s*((?P<jinst_page>[pP]\d{5}\d*)|[pP]?[p]?\.?\s?(?P<page>[RL]?\w?\d+[cC]?)(?:\s*-\s*(?P<page_end>[RL]?\w?\d+[cC]?))?)(?:\s*[,\s:-]\s*|(?=\())
    \(?
    (?:(?:(?:
[Jj]an|[Ff]eb|[Mm]ar|[Aa]pr|[Mm]ay|[Jj]un|
[Jj]ul|[Aa]ug|[Ss]ep|[Oo]ct|[Nn]ov|[Dd]ec
)\.?)[,\s]\s*)?  # Jul, 1980
    (?:(?:(?:
[Jj]anuary|[Ff]ebruary|[Mm]arch|[Aa]pril|[Mm]ay|[Jj]une|
[Jj]uly|[Aa]ugust|[Ss]eptember|[Oo]ctober|[Nn]ovember|[Dd]ecember
)\.?)[,\s]\s*)?        # July, 1980
    (?<!\d)
    (?P<year>[A-Za-z]?(?:19|20)\d{2})(?:[A-Za-z]?)
    (?!\d)
    \)?

```
-/
def re_numeration_vol_page_yr : Re :=
  (.star true (Re.space)) ⬝ (Re.opt (.set ⟨false, false, [.ch ',', .space, .ch ':', .ch '-']⟩)) ⬝ (.star true (Re.space)) ⬝ .wordb ⬝ (Re.opt (Re.alts [(.set ⟨false, false, [.ch 'V', .ch 'v']⟩) ⬝ (Re.opt (Re.ch 'o')) ⬝ (Re.opt (Re.ch 'l')) ⬝ (Re.opt (Re.ch '.')), (.set ⟨false, false, [.ch 'N', .ch 'n']⟩) ⬝ (.set ⟨false, false, [.ch 'o', .ch 'O', .ch '\u00b0']⟩) ⬝ (Re.opt (Re.ch '.'))])) ⬝ (.star true (Re.space)) ⬝ (.behind true [⟨false, false, [.ch '/', .digit]⟩]) ⬝ (.group G.vol (Re.alts [(Re.opt ((.set ⟨false, false, [.range 'A' 'Z', .range 'a' 'z']⟩) ⬝ (.star true (Re.space)) ⬝ (Re.opt (.set ⟨false, false, [.ch ',', .space, .ch ':', .ch '-']⟩)) ⬝ (.star true (Re.space)))) ⬝ .group G.vol_num (Re.alts [Re.plus (Re.digit), (.behind true [⟨false, false, [.word]⟩]) ⬝ (Re.plus (.set ⟨false, false, [.ch 'X', .ch 'x', .ch 'V', .ch 'v', .ch 'I', .ch 'i']⟩)) ⬝ (.look true (Re.word))]), (.group G.vol_num_alt (Re.alts [Re.plus (Re.digit), (.behind true [⟨false, false, [.word]⟩]) ⬝ (Re.plus (.set ⟨false, false, [.ch 'X', .ch 'x', .ch 'V', .ch 'v', .ch 'I', .ch 'i']⟩)) ⬝ (.look true (Re.word))])) ⬝ (.set ⟨false, false, [.range 'A' 'Z', .range 'a' 'z']⟩), (Re.opt ((.set ⟨false, false, [.range 'A' 'Z', .range 'a' 'z']⟩) ⬝ (Re.opt (Re.space)))) ⬝ (.group G.vol_num_alt2 (Re.plus (Re.digit))) ⬝ (.star true (Re.space)) ⬝ (Re.ch '-') ⬝ (.star true (Re.space)) ⬝ (Re.opt ((.set ⟨false, false, [.range 'A' 'Z', .range 'a' 'z']⟩) ⬝ (Re.opt (Re.space)))) ⬝ (Re.plus (Re.digit))])) ⬝ (Re.opt ((.star true (Re.space)) ⬝ (Re.ch '(') ⬝ (Re.rep 1 2 (Re.digit)) ⬝ (Re.opt ((Re.ch '-') ⬝ Re.digit)) ⬝ (Re.ch ')'))) ⬝ (Re.opt ((.star true (Re.space)) ⬝ (.set ⟨false, false, [.ch ',', .space, .ch ':', .ch '-']⟩) ⬝ (.star true (Re.space)) ⬝ .group G.vol_sub ((.set ⟨false, false, [.ch 'N', .ch 'n']⟩) ⬝ (.set ⟨false, false, [.ch 'o', .ch 'O', .ch '\u00b0']⟩) ⬝ (Re.opt (Re.ch '.')) ⬝ (.star true (Re.space)) ⬝ (Re.rep 1 6 (Re.digit))))) ⬝ (.star true (Re.space)) ⬝ (.set ⟨false, false, [.ch ',', .space, .ch ':', .ch '-']⟩) ⬝ (.star true (Re.space)) ⬝ (Re.alts [.group G.jinst_page ((.set ⟨false, false, [.ch 'p', .ch 'P']⟩) ⬝ (Re.times 5 (Re.digit)) ⬝ (.star true (Re.digit))), (Re.opt (.set ⟨false, false, [.ch 'p', .ch 'P']⟩)) ⬝ (Re.opt (Re.ch 'p')) ⬝ (Re.opt (Re.ch '.')) ⬝ (Re.opt (Re.space)) ⬝ (.group G.page ((Re.opt (.set ⟨false, false, [.ch 'R', .ch 'L']⟩)) ⬝ (Re.opt (Re.word)) ⬝ (Re.plus (Re.digit)) ⬝ (Re.opt (.set ⟨false, false, [.ch 'c', .ch 'C']⟩)))) ⬝ Re.opt ((.star true (Re.space)) ⬝ (Re.ch '-') ⬝ (.star true (Re.space)) ⬝ .group G.page_end ((Re.opt (.set ⟨false, false, [.ch 'R', .ch 'L']⟩)) ⬝ (Re.opt (Re.word)) ⬝ (Re.plus (Re.digit)) ⬝ (Re.opt (.set ⟨false, false, [.ch 'c', .ch 'C']⟩))))]) ⬝ (Re.alts [(.star true (Re.space)) ⬝ (.set ⟨false, false, [.ch ',', .space, .ch ':', .ch '-']⟩) ⬝ (.star true (Re.space)), .look false (Re.ch '(')]) ⬝ (Re.opt (Re.ch '(')) ⬝ (Re.opt ((Re.alts [(.set ⟨false, false, [.ch 'J', .ch 'j']⟩) ⬝ (.str (py! "an")), (.set ⟨false, false, [.ch 'F', .ch 'f']⟩) ⬝ (.str (py! "eb")), (.set ⟨false, false, [.ch 'M', .ch 'm']⟩) ⬝ (.str (py! "ar")), (.set ⟨false, false, [.ch 'A', .ch 'a']⟩) ⬝ (.str (py! "pr")), (.set ⟨false, false, [.ch 'M', .ch 'm']⟩) ⬝ (.str (py! "ay")), (.set ⟨false, false, [.ch 'J', .ch 'j']⟩) ⬝ (.str (py! "un")), (.set ⟨false, false, [.ch 'J', .ch 'j']⟩) ⬝ (.str (py! "ul")), (.set ⟨false, false, [.ch 'A', .ch 'a']⟩) ⬝ (.str (py! "ug")), (.set ⟨false, false, [.ch 'S', .ch 's']⟩) ⬝ (.str (py! "ep")), (.set ⟨false, false, [.ch 'O', .ch 'o']⟩) ⬝ (.str (py! "ct")), (.set ⟨false, false, [.ch 'N', .ch 'n']⟩) ⬝ (.str (py! "ov")), (.set ⟨false, false, [.ch 'D', .ch 'd']⟩) ⬝ (.str (py! "ec"))]) ⬝ (Re.opt (Re.ch '.')) ⬝ (.set ⟨false, false, [.ch ',', .space]⟩) ⬝ (.star true (Re.space)))) ⬝ (Re.opt ((Re.alts [(.set ⟨false, false, [.ch 'J', .ch 'j']⟩) ⬝ (.str (py! "anuary")), (.set ⟨false, false, [.ch 'F', .ch 'f']⟩) ⬝ (.str (py! "ebruary")), (.set ⟨false, false, [.ch 'M', .ch 'm']⟩) ⬝ (.str (py! "arch")), (.set ⟨false, false, [.ch 'A', .ch 'a']⟩) ⬝ (.str (py! "pril")), (.set ⟨false, false, [.ch 'M', .ch 'm']⟩) ⬝ (.str (py! "ay")), (.set ⟨false, false, [.ch 'J', .ch 'j']⟩) ⬝ (.str (py! "une")), (.set ⟨false, false, [.ch 'J', .ch 'j']⟩) ⬝ (.str (py! "uly")), (.set ⟨false, false, [.ch 'A', .ch 'a']⟩) ⬝ (.str (py! "ugust")), (.set ⟨false, false, [.ch 'S', .ch 's']⟩) ⬝ (.str (py! "eptember")), (.set ⟨false, false, [.ch 'O', .ch 'o']⟩) ⬝ (.str (py! "ctober")), (.set ⟨false, false, [.ch 'N', .ch 'n']⟩) ⬝ (.str (py! "ovember")), (.set ⟨false, false, [.ch 'D', .ch 'd']⟩) ⬝ (.str (py! "ecember"))]) ⬝ (Re.opt (Re.ch '.')) ⬝ (.set ⟨false, false, [.ch ',', .space]⟩) ⬝ (.star true (Re.space)))) ⬝ (.behind true [⟨false, false, [.digit]⟩]) ⬝ (.group G.year ((Re.opt (.set ⟨false, false, [.range 'A' 'Z', .range 'a' 'z']⟩)) ⬝ (Re.alts [.str (py! "19"), .str (py! "20")]) ⬝ (Re.times 2 (Re.digit)))) ⬝ (Re.opt (.set ⟨false, false, [.range 'A' 'Z', .range 'a' 'z']⟩)) ⬝ (.look true (Re.digit)) ⬝ (Re.opt (Re.ch ')'))

/-- `refextract/references/regexs.py:677-688 re_numeration_vol_nucphys_page_yr` flags X
```
\s*[,\s:-]?\s*\b(?:(?:[Vv]o?l?\.?|[Nn][oO°]\.?))?\s*(?<![\/\d])(?P<vol>(?:(?:[A-Za-z]\s*[,\s:-]?\s*)?(?P<vol_num>\d+|(?:(?<!\w)[XxVvIi]+(?!\w))))|(?:(?P<vol_num_alt>\d+|(?:(?<!\w)[XxVvIi]+(?!\w)))(?:[A-Za-z]))|(?:(?:[A-Za-z]\s?)?(?P<vol_num_alt2>\d+)\s*\-\s*(?:[A-Za-z]\s?)?\d+))(?:\s*\(\d{1,2}(?:-\d)?\))?(?:\s*[,\s:-]\s*(?P<vol_sub>[Nn][oO°]\.?\s*\d{1,6}))?\s*[,\s:-]\s*(?:[\(\[]\s*(?:[Ff][Ss]|[Pp][Mm])\s*\d{0,4}\s*[\)\]])\s*[,\s:-]\s*((?P<jinst_page>[pP]\d{5}\d*)|[pP]?[p]?\.?\s?(?P<page>[RL]?\w?\d+[cC]?)(?:\s*-\s*(?P<page_end>[RL]?\w?\d+[cC]?))?)(?:\s*[,\s:-]\s*|(?=\())
    \(?
    (?:(?:(?:
[Jj]an|[Ff]eb|[Mm]ar|[Aa]pr|[Mm]ay|[Jj]un|
[Jj]ul|[Aa]ug|[Ss]ep|[Oo]ct|[Nn]ov|[Dd]ec
)\.?)[,\s]\s*)?  # Jul, 1980
    (?:(?:(?:
[Jj]anuary|[Ff]ebruary|[Mm]arch|[Aa]pril|[Mm]ay|[Jj]une|
[Jj]uly|[Aa]ugust|[Ss]eptember|[Oo]ctober|[Nn]ovember|[Dd]ecember
)\.?)[,\s]\s*)?        # July, 1980
    (?<!\d)
    (?P<year>[A-Za-z]?(?:19|20)\d{2})(?:[A-Za-z]?)
    (?!\d)
    \)?

```
-/
def re_numeration_vol_nucphys_page_yr : Re :=
  (.star true (Re.space)) ⬝ (Re.opt (.set ⟨false, false, [.ch ',', .space, .ch ':', .ch '-']⟩)) ⬝ (.star true (Re.space)) ⬝ .wordb ⬝ (Re.opt (Re.alts [(.set ⟨false, false, [.ch 'V', .ch 'v']⟩) ⬝ (Re.opt (Re.ch 'o')) ⬝ (Re.opt (Re.ch 'l')) ⬝ (Re.opt (Re.ch '.')), (.set ⟨false, false, [.ch 'N', .ch 'n']⟩) ⬝ (.set ⟨false, false, [.ch 'o', .ch 'O', .ch '\u00b0']⟩) ⬝ (Re.opt (Re.ch '.'))])) ⬝ (.star true (Re.space)) ⬝ (.behind true [⟨false, false, [.ch '/', .digit]⟩]) ⬝ (.group G.vol (Re.alts [(Re.opt ((.set ⟨false, false, [.range 'A' 'Z', .range 'a' 'z']⟩) ⬝ (.star true (Re.space)) ⬝ (Re.opt (.set ⟨false, false, [.ch ',', .space, .ch ':', .ch '-']⟩)) ⬝ (.star true (Re.space)))) ⬝ .group G.vol_num (Re.alts [Re.plus (Re.digit), (.behind true [⟨false, false, [.word]⟩]) ⬝ (Re.plus (.set ⟨false, false, [.ch 'X', .ch 'x', .ch 'V', .ch 'v', .ch 'I', .ch 'i']⟩)) ⬝ (.look true (Re.word))]), (.group G.vol_num_alt (Re.alts [Re.plus (Re.digit), (.behind true [⟨false, false, [.word]⟩]) ⬝ (Re.plus (.set ⟨false, false, [.ch 'X', .ch 'x', .ch 'V', .ch 'v', .ch 'I', .ch 'i']⟩)) ⬝ (.look true (Re.word))])) ⬝ (.set ⟨false, false, [.range 'A' 'Z', .range 'a' 'z']⟩), (Re.opt ((.set ⟨false, false, [.range 'A' 'Z', .range 'a' 'z']⟩) ⬝ (Re.opt (Re.space)))) ⬝ (.group G.vol_num_alt2 (Re.plus (Re.digit))) ⬝ (.star true (Re.space)) ⬝ (Re.ch '-') ⬝ (.star true (Re.space)) ⬝ (Re.opt ((.set ⟨false, false, [.range 'A' 'Z', .range 'a' 'z']⟩) ⬝ (Re.opt (Re.space)))) ⬝ (Re.plus (Re.digit))])) ⬝ (Re.opt ((.star true (Re.space)) ⬝ (Re.ch '(') ⬝ (Re.rep 1 2 (Re.digit)) ⬝ (Re.opt ((Re.ch '-') ⬝ Re.digit)) ⬝ (Re.ch ')'))) ⬝ (Re.opt ((.star true (Re.space)) ⬝ (.set ⟨false, false, [.ch ',', .space, .ch ':', .ch '-']⟩) ⬝ (.star true (Re.space)) ⬝ .group G.vol_sub ((.set ⟨false, false, [.ch 'N', .ch 'n']⟩) ⬝ (.set ⟨false, false, [.ch 'o', .ch 'O', .ch '\u00b0']⟩) ⬝ (Re.opt (Re.ch '.')) ⬝ (.star true (Re.space)) ⬝ (Re.rep 1 6 (Re.digit))))) ⬝ (.star true (Re.space)) ⬝ (.set ⟨false, false, [.ch ',', .space, .ch ':', .ch '-']⟩) ⬝ (.star true (Re.space)) ⬝ (.set ⟨false, false, [.ch '(', .ch '[']⟩) ⬝ (.star true (Re.space)) ⬝ (Re.alts [(.set ⟨false, false, [.ch 'F', .ch 'f']⟩) ⬝ (.set ⟨false, false, [.ch 'S', .ch 's']⟩), (.set ⟨false, false, [.ch 'P', .ch 'p']⟩) ⬝ (.set ⟨false, false, [.ch 'M', .ch 'm']⟩)]) ⬝ (.star true (Re.space)) ⬝ (Re.rep 0 4 (Re.digit)) ⬝ (.star true (Re.space)) ⬝ (.set ⟨false, false, [.ch ')', .ch ']']⟩) ⬝ (.star true (Re.space)) ⬝ (.set ⟨false, false, [.ch ',', .space, .ch ':', .ch '-']⟩) ⬝ (.star true (Re.space)) ⬝ (Re.alts [.group G.jinst_page ((.set ⟨false, false, [.ch 'p', .ch 'P']⟩) ⬝ (Re.times 5 (Re.digit)) ⬝ (.star true (Re.digit))), (Re.opt (.set ⟨false, false, [.ch 'p', .ch 'P']⟩)) ⬝ (Re.opt (Re.ch 'p')) ⬝ (Re.opt (Re.ch '.')) ⬝ (Re.opt (Re.space)) ⬝ (.group G.page ((Re.opt (.set ⟨false, false, [.ch 'R', .ch 'L']⟩)) ⬝ (Re.opt (Re.word)) ⬝ (Re.plus (Re.digit)) ⬝ (Re.opt (.set ⟨false, false, [.ch 'c', .ch 'C']⟩)))) ⬝ Re.opt ((.star true (Re.space)) ⬝ (Re.ch '-') ⬝ (.star true (Re.space)) ⬝ .group G.page_end ((Re.opt (.set ⟨false, false, [.ch 'R', .ch 'L']⟩)) ⬝ (Re.opt (Re.word)) ⬝ (Re.plus (Re.digit)) ⬝ (Re.opt (.set ⟨false, false, [.ch 'c', .ch 'C']⟩))))]) ⬝ (Re.alts [(.star true (Re.space)) ⬝ (.set ⟨false, false, [.ch ',', .space, .ch ':', .ch '-']⟩) ⬝ (.star true (Re.space)), .look false (Re.ch '(')]) ⬝ (Re.opt (Re.ch '(')) ⬝ (Re.opt ((Re.alts [(.set ⟨false, false, [.ch 'J', .ch 'j']⟩) ⬝ (.str (py! "an")), (.set ⟨false, false, [.ch 'F', .ch 'f']⟩) ⬝ (.str (py! "eb")), (.set ⟨false, false, [.ch 'M', .ch 'm']⟩) ⬝ (.str (py! "ar")), (.set ⟨false, false, [.ch 'A', .ch 'a']⟩) ⬝ (.str (py! "pr")), (.set ⟨false, false, [.ch 'M', .ch 'm']⟩) ⬝ (.str (py! "ay")), (.set ⟨false, false, [.ch 'J', .ch 'j']⟩) ⬝ (.str (py! "un")), (.set ⟨false, false, [.ch 'J', .ch 'j']⟩) ⬝ (.str (py! "ul")), (.set ⟨false, false, [.ch 'A', .ch 'a']⟩) ⬝ (.str (py! "ug")), (.set ⟨false, false, [.ch 'S', .ch 's']⟩) ⬝ (.str (py! "ep")), (.set ⟨false, false, [.ch 'O', .ch 'o']⟩) ⬝ (.str (py! "ct")), (.set ⟨false, false, [.ch 'N', .ch 'n']⟩) ⬝ (.str (py! "ov")), (.set ⟨false, false, [.ch 'D', .ch 'd']⟩) ⬝ (.str (py! "ec"))]) ⬝ (Re.opt (Re.ch '.')) ⬝ (.set ⟨false, false, [.ch ',', .space]⟩) ⬝ (.star true (Re.space)))) ⬝ (Re.opt ((Re.alts [(.set ⟨false, false, [.ch 'J', .ch 'j']⟩) ⬝ (.str (py! "anuary")), (.set ⟨false, false, [.ch 'F', .ch 'f']⟩) ⬝ (.str (py! "ebruary")), (.set ⟨false, false, [.ch 'M', .ch 'm']⟩) ⬝ (.str (py! "arch")), (.set ⟨false, false, [.ch 'A', .ch 'a']⟩) ⬝ (.str (py! "pril")), (.set ⟨false, false, [.ch 'M', .ch 'm']⟩) ⬝ (.str (py! "ay")), (.set ⟨false, false, [.ch 'J', .ch 'j']⟩) ⬝ (.str (py! "une")), (.set ⟨false, false, [.ch 'J', .ch 'j']⟩) ⬝ (.str (py! "uly")), (.set ⟨false, false, [.ch 'A', .ch 'a']⟩) ⬝ (.str (py! "ugust")), (.set ⟨false, false, [.ch 'S', .ch 's']⟩) ⬝ (.str (py! "eptember")), (.set ⟨false, false, [.ch 'O', .ch 'o']⟩) ⬝ (.str (py! "ctober")), (.set ⟨false, false, [.ch 'N', .ch 'n']⟩) ⬝ (.str (py! "ovember")), (.set ⟨false, false, [.ch 'D', .ch 'd']⟩) ⬝ (.str (py! "ecember"))]) ⬝ (Re.opt (Re.ch '.')) ⬝ (.set ⟨false, false, [.ch ',', .space]⟩) ⬝ (.star true (Re.space)))) ⬝ (.behind true [⟨false, false, [.digit]⟩]) ⬝ (.group G.year ((Re.opt (.set ⟨false, false, [.range 'A' 'Z', .range 'a' 'z']⟩)) ⬝ (Re.alts [.str (py! "19"), .str (py! "20")]) ⬝ (Re.times 2 (Re.digit)))) ⬝ (Re.opt (.set ⟨false, false, [.range 'A' 'Z', .range 'a' 'z']⟩)) ⬝ (.look true (Re.digit)) ⬝ (Re.opt (Re.ch ')'))

/-- `refextract/references/regexs.py:691-701 re_numeration_nucphys_vol_page_yr` flags X
```
\s*[,\s:-]?\s*(?:[\(\[]\s*(?:[Ff][Ss]|[Pp][Mm])\s*\d{0,4}\s*[\)\]])\s*[,\s:-]\s*\b(?:(?:[Vv]o?l?\.?|[Nn][oO°]\.?))?\s*(?<![\/\d])(?P<vol>(?:(?:[A-Za-z]\s*[,\s:-]?\s*)?(?P<vol_num>\d+|(?:(?<!\w)[XxVvIi]+(?!\w))))|(?:(?P<vol_num_alt>\d+|(?:(?<!\w)[XxVvIi]+(?!\w)))(?:[A-Za-z]))|(?:(?:[A-Za-z]\s?)?(?P<vol_num_alt2>\d+)\s*\-\s*(?:[A-Za-z]\s?)?\d+))(?:\s*\(\d{1,2}(?:-\d)?\))?\s*[,\s:-]\s*((?P<jinst_page>[pP]\d{5}\d*)|[pP]?[p]?\.?\s?(?P<page>[RL]?\w?\d+[cC]?)(?:\s*-\s*(?P<page_end>[RL]?\w?\d+[cC]?))?)(?:\s*[,\s:-]\s*|(?=\())
    \(?
    (?:(?:(?:
[Jj]an|[Ff]eb|[Mm]ar|[Aa]pr|[Mm]ay|[Jj]un|
[Jj]ul|[Aa]ug|[Ss]ep|[Oo]ct|[Nn]ov|[Dd]ec
)\.?)[,\s]\s*)?  # Jul, 1980
    (?:(?:(?:
[Jj]anuary|[Ff]ebruary|[Mm]arch|[Aa]pril|[Mm]ay|[Jj]une|
[Jj]uly|[Aa]ugust|[Ss]eptember|[Oo]ctober|[Nn]ovember|[Dd]ecember
)\.?)[,\s]\s*)?        # July, 1980
    (?<!\d)
    (?P<year>[A-Za-z]?(?:19|20)\d{2})(?:[A-Za-z]?)
    (?!\d)
    \)?

```
-/
def re_numeration_nucphys_vol_page_yr : Re :=
  (.star true (Re.space)) ⬝ (Re.opt (.set ⟨false, false, [.ch ',', .space, .ch ':', .ch '-']⟩)) ⬝ (.star true (Re.space)) ⬝ (.set ⟨false, false, [.ch '(', .ch '[']⟩) ⬝ (.star true (Re.space)) ⬝ (Re.alts [(.set ⟨false, false, [.ch 'F', .ch 'f']⟩) ⬝ (.set ⟨false, false, [.ch 'S', .ch 's']⟩), (.set ⟨false, false, [.ch 'P', .ch 'p']⟩) ⬝ (.set ⟨false, false, [.ch 'M', .ch 'm']⟩)]) ⬝ (.star true (Re.space)) ⬝ (Re.rep 0 4 (Re.digit)) ⬝ (.star true (Re.space)) ⬝ (.set ⟨false, false, [.ch ')', .ch ']']⟩) ⬝ (.star true (Re.space)) ⬝ (.set ⟨false, false, [.ch ',', .space, .ch ':', .ch '-']⟩) ⬝ (.star true (Re.space)) ⬝ .wordb ⬝ (Re.opt (Re.alts [(.set ⟨false, false, [.ch 'V', .ch 'v']⟩) ⬝ (Re.opt (Re.ch 'o')) ⬝ (Re.opt (Re.ch 'l')) ⬝ (Re.opt (Re.ch '.')), (.set ⟨false, false, [.ch 'N', .ch 'n']⟩) ⬝ (.set ⟨false, false, [.ch 'o', .ch 'O', .ch '\u00b0']⟩) ⬝ (Re.opt (Re.ch '.'))])) ⬝ (.star true (Re.space)) ⬝ (.behind true [⟨false, false, [.ch '/', .digit]⟩]) ⬝ (.group G.vol (Re.alts [(Re.opt ((.set ⟨false, false, [.range 'A' 'Z', .range 'a' 'z']⟩) ⬝ (.star true (Re.space)) ⬝ (Re.opt (.set ⟨false, false, [.ch ',', .space, .ch ':', .ch '-']⟩)) ⬝ (.star true (Re.space)))) ⬝ .group G.vol_num (Re.alts [Re.plus (Re.digit), (.behind true [⟨false, false, [.word]⟩]) ⬝ (Re.plus (.set ⟨false, false, [.ch 'X', .ch 'x', .ch 'V', .ch 'v', .ch 'I', .ch 'i']⟩)) ⬝ (.look true (Re.word))]), (.group G.vol_num_alt (Re.alts [Re.plus (Re.digit), (.behind true [⟨false, false, [.word]⟩]) ⬝ (Re.plus (.set ⟨false, false, [.ch 'X', .ch 'x', .ch 'V', .ch 'v', .ch 'I', .ch 'i']⟩)) ⬝ (.look true (Re.word))])) ⬝ (.set ⟨false, false, [.range 'A' 'Z', .range 'a' 'z']⟩), (Re.opt ((.set ⟨false, false, [.range 'A' 'Z', .range 'a' 'z']⟩) ⬝ (Re.opt (Re.space)))) ⬝ (.group G.vol_num_alt2 (Re.plus (Re.digit))) ⬝ (.star true (Re.space)) ⬝ (Re.ch '-') ⬝ (.star true (Re.space)) ⬝ (Re.opt ((.set ⟨false, false, [.range 'A' 'Z', .range 'a' 'z']⟩) ⬝ (Re.opt (Re.space)))) ⬝ (Re.plus (Re.digit))])) ⬝ (Re.opt ((.star true (Re.space)) ⬝ (Re.ch '(') ⬝ (Re.rep 1 2 (Re.digit)) ⬝ (Re.opt ((Re.ch '-') ⬝ Re.digit)) ⬝ (Re.ch ')'))) ⬝ (.star true (Re.space)) ⬝ (.set ⟨false, false, [.ch ',', .space, .ch ':', .ch '-']⟩) ⬝ (.star true (Re.space)) ⬝ (Re.alts [.group G.jinst_page ((.set ⟨false, false, [.ch 'p', .ch 'P']⟩) ⬝ (Re.times 5 (Re.digit)) ⬝ (.star true (Re.digit))), (Re.opt (.set ⟨false, false, [.ch 'p', .ch 'P']⟩)) ⬝ (Re.opt (Re.ch 'p')) ⬝ (Re.opt (Re.ch '.')) ⬝ (Re.opt (Re.space)) ⬝ (.group G.page ((Re.opt (.set ⟨false, false, [.ch 'R', .ch 'L']⟩)) ⬝ (Re.opt (Re.word)) ⬝ (Re.plus (Re.digit)) ⬝ (Re.opt (.set ⟨false, false, [.ch 'c', .ch 'C']⟩)))) ⬝ Re.opt ((.star true (Re.space)) ⬝ (Re.ch '-') ⬝ (.star true (Re.space)) ⬝ .group G.page_end ((Re.opt (.set ⟨false, false, [.ch 'R', .ch 'L']⟩)) ⬝ (Re.opt (Re.word)) ⬝ (Re.plus (Re.digit)) ⬝ (Re.opt (.set ⟨false, false, [.ch 'c', .ch 'C']⟩))))]) ⬝ (Re.alts [(.star true (Re.space)) ⬝ (.set ⟨false, false, [.ch ',', .space, .ch ':', .ch '-']⟩) ⬝ (.star true (Re.space)), .look false (Re.ch '(')]) ⬝ (Re.opt (Re.ch '(')) ⬝ (Re.opt ((Re.alts [(.set ⟨false, false, [.ch 'J', .ch 'j']⟩) ⬝ (.str (py! "an")), (.set ⟨false, false, [.ch 'F', .ch 'f']⟩) ⬝ (.str (py! "eb")), (.set ⟨false, false, [.ch 'M', .ch 'm']⟩) ⬝ (.str (py! "ar")), (.set ⟨false, false, [.ch 'A', .ch 'a']⟩) ⬝ (.str (py! "pr")), (.set ⟨false, false, [.ch 'M', .ch 'm']⟩) ⬝ (.str (py! "ay")), (.set ⟨false, false, [.ch 'J', .ch 'j']⟩) ⬝ (.str (py! "un")), (.set ⟨false, false, [.ch 'J', .ch 'j']⟩) ⬝ (.str (py! "ul")), (.set ⟨false, false, [.ch 'A', .ch 'a']⟩) ⬝ (.str (py! "ug")), (.set ⟨false, false, [.ch 'S', .ch 's']⟩) ⬝ (.str (py! "ep")), (.set ⟨false, false, [.ch 'O', .ch 'o']⟩) ⬝ (.str (py! "ct")), (.set ⟨false, false, [.ch 'N', .ch 'n']⟩) ⬝ (.str (py! "ov")), (.set ⟨false, false, [.ch 'D', .ch 'd']⟩) ⬝ (.str (py! "ec"))]) ⬝ (Re.opt (Re.ch '.')) ⬝ (.set ⟨false, false, [.ch ',', .space]⟩) ⬝ (.star true (Re.space)))) ⬝ (Re.opt ((Re.alts [(.set ⟨false, false, [.ch 'J', .ch 'j']⟩) ⬝ (.str (py! "anuary")), (.set ⟨false, false, [.ch 'F', .ch 'f']⟩) ⬝ (.str (py! "ebruary")), (.set ⟨false, false, [.ch 'M', .ch 'm']⟩) ⬝ (.str (py! "arch")), (.set ⟨false, false, [.ch 'A', .ch 'a']⟩) ⬝ (.str (py! "pril")), (.set ⟨false, false, [.ch 'M', .ch 'm']⟩) ⬝ (.str (py! "ay")), (.set ⟨false, false, [.ch 'J', .ch 'j']⟩) ⬝ (.str (py! "une")), (.set ⟨false, false, [.ch 'J', .ch 'j']⟩) ⬝ (.str (py! "uly")), (.set ⟨false, false, [.ch 'A', .ch 'a']⟩) ⬝ (.str (py! "ugust")), (.set ⟨false, false, [.ch 'S', .ch 's']⟩) ⬝ (.str (py! "eptember")), (.set ⟨false, false, [.ch 'O', .ch 'o']⟩) ⬝ (.str (py! "ctober")), (.set ⟨false, false, [.ch 'N', .ch 'n']⟩) ⬝ (.str (py! "ovember")), (.set ⟨false, false, [.ch 'D', .ch 'd']⟩) ⬝ (.str (py! "ecember"))]) ⬝ (Re.opt (Re.ch '.')) ⬝ (.set ⟨false, false, [.ch ',', .space]⟩) ⬝ (.star true (Re.space)))) ⬝ (.behind true [⟨false, false, [.digit]⟩]) ⬝ (.group G.year ((Re.opt (.set ⟨false, false, [.range 'A' 'Z', .range 'a' 'z']⟩)) ⬝ (Re.alts [.str (py! "19"), .str (py! "20")]) ⬝ (Re.times 2 (Re.digit)))) ⬝ (Re.opt (.set ⟨false, false, [.range 'A' 'Z', .range 'a' 'z']⟩)) ⬝ (.look true (Re.digit)) ⬝ (Re.opt (Re.ch ')'))

/-- `refextract/references/regexs.py:706-714 re_numeration_vol_yr_page` flags X
```
\s*[,\s:-]?\s*\b(?:(?:[Vv]o?l?\.?|[Nn][oO°]\.?))?\s*(?<![\/\d])(?P<vol>(?:(?:[A-Za-z]\s*[,\s:-]?\s*)?(?P<vol_num>\d+|(?:(?<!\w)[XxVvIi]+(?!\w))))|(?:(?P<vol_num_alt>\d+|(?:(?<!\w)[XxVvIi]+(?!\w)))(?:[A-Za-z]))|(?:(?:[A-Za-z]\s?)?(?P<vol_num_alt2>\d+)\s*\-\s*(?:[A-Za-z]\s?)?\d+))(?:\s*\(\d{1,2}(?:-\d)?\))?(?:\s*[,\s:-]\s*|(?=\())
    \(?
    (?:(?:(?:
[Jj]an|[Ff]eb|[Mm]ar|[Aa]pr|[Mm]ay|[Jj]un|
[Jj]ul|[Aa]ug|[Ss]ep|[Oo]ct|[Nn]ov|[Dd]ec
)\.?)[,\s]\s*)?  # Jul, 1980
    (?:(?:(?:
[Jj]anuary|[Ff]ebruary|[Mm]arch|[Aa]pril|[Mm]ay|[Jj]une|
[Jj]uly|[Aa]ugust|[Ss]eptember|[Oo]ctober|[Nn]ovember|[Dd]ecember
)\.?)[,\s]\s*)?        # July, 1980
    (?<!\d)
    (?P<year>[A-Za-z]?(?:19|20)\d{2})(?:[A-Za-z]?)
    (?!\d)
    \)?
(?:\s*[,\s:-]\s*|(?<=\)))((?P<jinst_page>[pP]\d{5}\d*)|[pP]?[p]?\.?\s?(?P<page>[RL]?\w?\d+[cC]?)(?:\s*-\s*(?P<page_end>[RL]?\w?\d+[cC]?))?)
```
-/
def re_numeration_vol_yr_page : Re :=
  (.star true (Re.space)) ⬝ (Re.opt (.set ⟨false, false, [.ch ',', .space, .ch ':', .ch '-']⟩)) ⬝ (.star true (Re.space)) ⬝ .wordb ⬝ (Re.opt (Re.alts [(.set ⟨false, false, [.ch 'V', .ch 'v']⟩) ⬝ (Re.opt (Re.ch 'o')) ⬝ (Re.opt (Re.ch 'l')) ⬝ (Re.opt (Re.ch '.')), (.set ⟨false, false, [.ch 'N', .ch 'n']⟩) ⬝ (.set ⟨false, false, [.ch 'o', .ch 'O', .ch '\u00b0']⟩) ⬝ (Re.opt (Re.ch '.'))])) ⬝ (.star true (Re.space)) ⬝ (.behind true [⟨false, false, [.ch '/', .digit]⟩]) ⬝ (.group G.vol (Re.alts [(Re.opt ((.set ⟨false, false, [.range 'A' 'Z', .range 'a' 'z']⟩) ⬝ (.star true (Re.space)) ⬝ (Re.opt (.set ⟨false, false, [.ch ',', .space, .ch ':', .ch '-']⟩)) ⬝ (.star true (Re.space)))) ⬝ .group G.vol_num (Re.alts [Re.plus (Re.digit), (.behind true [⟨false, false, [.word]⟩]) ⬝ (Re.plus (.set ⟨false, false, [.ch 'X', .ch 'x', .ch 'V', .ch 'v', .ch 'I', .ch 'i']⟩)) ⬝ (.look true (Re.word))]), (.group G.vol_num_alt (Re.alts [Re.plus (Re.digit), (.behind true [⟨false, false, [.word]⟩]) ⬝ (Re.plus (.set ⟨false, false, [.ch 'X', .ch 'x', .ch 'V', .ch 'v', .ch 'I', .ch 'i']⟩)) ⬝ (.look true (Re.word))])) ⬝ (.set ⟨false, false, [.range 'A' 'Z', .range 'a' 'z']⟩), (Re.opt ((.set ⟨false, false, [.range 'A' 'Z', .range 'a' 'z']⟩) ⬝ (Re.opt (Re.space)))) ⬝ (.group G.vol_num_alt2 (Re.plus (Re.digit))) ⬝ (.star true (Re.space)) ⬝ (Re.ch '-') ⬝ (.star true (Re.space)) ⬝ (Re.opt ((.set ⟨false, false, [.range 'A' 'Z', .range 'a' 'z']⟩) ⬝ (Re.opt (Re.space)))) ⬝ (Re.plus (Re.digit))])) ⬝ (Re.opt ((.star true (Re.space)) ⬝ (Re.ch '(') ⬝ (Re.rep 1 2 (Re.digit)) ⬝ (Re.opt ((Re.ch '-') ⬝ Re.digit)) ⬝ (Re.ch ')'))) ⬝ (Re.alts [(.star true (Re.space)) ⬝ (.set ⟨false, false, [.ch ',', .space, .ch ':', .ch '-']⟩) ⬝ (.star true (Re.space)), .look false (Re.ch '(')]) ⬝ (Re.opt (Re.ch '(')) ⬝ (Re.opt ((Re.alts [(.set ⟨false, false, [.ch 'J', .ch 'j']⟩) ⬝ (.str (py! "an")), (.set ⟨false, false, [.ch 'F', .ch 'f']⟩) ⬝ (.str (py! "eb")), (.set ⟨false, false, [.ch 'M', .ch 'm']⟩) ⬝ (.str (py! "ar")), (.set ⟨false, false, [.ch 'A', .ch 'a']⟩) ⬝ (.str (py! "pr")), (.set ⟨false, false, [.ch 'M', .ch 'm']⟩) ⬝ (.str (py! "ay")), (.set ⟨false, false, [.ch 'J', .ch 'j']⟩) ⬝ (.str (py! "un")), (.set ⟨false, false, [.ch 'J', .ch 'j']⟩) ⬝ (.str (py! "ul")), (.set ⟨false, false, [.ch 'A', .ch 'a']⟩) ⬝ (.str (py! "ug")), (.set ⟨false, false, [.ch 'S', .ch 's']⟩) ⬝ (.str (py! "ep")), (.set ⟨false, false, [.ch 'O', .ch 'o']⟩) ⬝ (.str (py! "ct")), (.set ⟨false, false, [.ch 'N', .ch 'n']⟩) ⬝ (.str (py! "ov")), (.set ⟨false, false, [.ch 'D', .ch 'd']⟩) ⬝ (.str (py! "ec"))]) ⬝ (Re.opt (Re.ch '.')) ⬝ (.set ⟨false, false, [.ch ',', .space]⟩) ⬝ (.star true (Re.space)))) ⬝ (Re.opt ((Re.alts [(.set ⟨false, false, [.ch 'J', .ch 'j']⟩) ⬝ (.str (py! "anuary")), (.set ⟨false, false, [.ch 'F', .ch 'f']⟩) ⬝ (.str (py! "ebruary")), (.set ⟨false, false, [.ch 'M', .ch 'm']⟩) ⬝ (.str (py! "arch")), (.set ⟨false, false, [.ch 'A', .ch 'a']⟩) ⬝ (.str (py! "pril")), (.set ⟨false, false, [.ch 'M', .ch 'm']⟩) ⬝ (.str (py! "ay")), (.set ⟨false, false, [.ch 'J', .ch 'j']⟩) ⬝ (.str (py! "une")), (.set ⟨false, false, [.ch 'J', .ch 'j']⟩) ⬝ (.str (py! "uly")), (.set ⟨false, false, [.ch 'A', .ch 'a']⟩) ⬝ (.str (py! "ugust")), (.set ⟨false, false, [.ch 'S', .ch 's']⟩) ⬝ (.str (py! "eptember")), (.set ⟨false, false, [.ch 'O', .ch 'o']⟩) ⬝ (.str (py! "ctober")), (.set ⟨false, false, [.ch 'N', .ch 'n']⟩) ⬝ (.str (py! "ovember")), (.set ⟨false, false, [.ch 'D', .ch 'd']⟩) ⬝ (.str (py! "ecember"))]) ⬝ (Re.opt (Re.ch '.')) ⬝ (.set ⟨false, false, [.ch ',', .space]⟩) ⬝ (.star true (Re.space)))) ⬝ (.behind true [⟨false, false, [.digit]⟩]) ⬝ (.group G.year ((Re.opt (.set ⟨false, false, [.range 'A' 'Z', .range 'a' 'z']⟩)) ⬝ (Re.alts [.str (py! "19"), .str (py! "20")]) ⬝ (Re.times 2 (Re.digit)))) ⬝ (Re.opt (.set ⟨false, false, [.range 'A' 'Z', .range 'a' 'z']⟩)) ⬝ (.look true (Re.digit)) ⬝ (Re.opt (Re.ch ')')) ⬝ (Re.alts [(.star true (Re.space)) ⬝ (.set ⟨false, false, [.ch ',', .space, .ch ':', .ch '-']⟩) ⬝ (.star true (Re.space)), .behind false [⟨false, false, [.ch ')']⟩]]) ⬝ Re.alts [.group G.jinst_page ((.set ⟨false, false, [.ch 'p', .ch 'P']⟩) ⬝ (Re.times 5 (Re.digit)) ⬝ (.star true (Re.digit))), (Re.opt (.set ⟨false, false, [.ch 'p', .ch 'P']⟩)) ⬝ (Re.opt (Re.ch 'p')) ⬝ (Re.opt (Re.ch '.')) ⬝ (Re.opt (Re.space)) ⬝ (.group G.page ((Re.opt (.set ⟨false, false, [.ch 'R', .ch 'L']⟩)) ⬝ (Re.opt (Re.word)) ⬝ (Re.plus (Re.digit)) ⬝ (Re.opt (.set ⟨false, false, [.ch 'c', .ch 'C']⟩)))) ⬝ Re.opt ((.star true (Re.space)) ⬝ (Re.ch '-') ⬝ (.star true (Re.space)) ⬝ .group G.page_end ((Re.opt (.set ⟨false, false, [.ch 'R', .ch 'L']⟩)) ⬝ (Re.opt (Re.word)) ⬝ (Re.plus (Re.digit)) ⬝ (Re.opt (.set ⟨false, false, [.ch 'c', .ch 'C']⟩))))]

/-- `refextract/references/regexs.py:717-727 re_numeration_vol_subvol_nucphys_yr_page` flags X
```
\s*[,\s:-]?\s*\b(?:(?:[Vv]o?l?\.?|[Nn][oO°]\.?))?\s*(?<![\/\d])(?P<vol>(?:(?:[A-Za-z]\s*[,\s:-]?\s*)?(?P<vol_num>\d+|(?:(?<!\w)[XxVvIi]+(?!\w))))|(?:(?P<vol_num_alt>\d+|(?:(?<!\w)[XxVvIi]+(?!\w)))(?:[A-Za-z]))|(?:(?:[A-Za-z]\s?)?(?P<vol_num_alt2>\d+)\s*\-\s*(?:[A-Za-z]\s?)?\d+))(?:\s*\(\d{1,2}(?:-\d)?\))?(?:\s*[,\s:-]\s*(?P<vol_sub>[Nn][oO°]\.?\s*\d{1,6}))?(?:\s*[,\s:-]\s*(?:[\(\[]\s*(?:[Ff][Ss]|[Pp][Mm])\s*\d{0,4}\s*[\)\]]))?(?:\s*[,\s:-]\s*|(?=\())
    \(?
    (?:(?:(?:
[Jj]an|[Ff]eb|[Mm]ar|[Aa]pr|[Mm]ay|[Jj]un|
[Jj]ul|[Aa]ug|[Ss]ep|[Oo]ct|[Nn]ov|[Dd]ec
)\.?)[,\s]\s*)?  # Jul, 1980
    (?:(?:(?:
[Jj]anuary|[Ff]ebruary|[Mm]arch|[Aa]pril|[Mm]ay|[Jj]une|
[Jj]uly|[Aa]ugust|[Ss]eptember|[Oo]ctober|[Nn]ovember|[Dd]ecember
)\.?)[,\s]\s*)?        # July, 1980
    (?<!\d)
    (?P<year>[A-Za-z]?(?:19|20)\d{2})(?:[A-Za-z]?)
    (?!\d)
    \)?
(?:\s*[,\s:-]\s*|(?<=\)))((?P<jinst_page>[pP]\d{5}\d*)|[pP]?[p]?\.?\s?(?P<page>[RL]?\w?\d+[cC]?)(?:\s*-\s*(?P<page_end>[RL]?\w?\d+[cC]?))?)
```
-/
def re_numeration_vol_subvol_nucphys_yr_page : Re :=
  (.star true (Re.space)) ⬝ (Re.opt (.set ⟨false, false, [.ch ',', .space, .ch ':', .ch '-']⟩)) ⬝ (.star true (Re.space)) ⬝ .wordb ⬝ (Re.opt (Re.alts [(.set ⟨false, false, [.ch 'V', .ch 'v']⟩) ⬝ (Re.opt (Re.ch 'o')) ⬝ (Re.opt (Re.ch 'l')) ⬝ (Re.opt (Re.ch '.')), (.set ⟨false, false, [.ch 'N', .ch 'n']⟩) ⬝ (.set ⟨false, false, [.ch 'o', .ch 'O', .ch '\u00b0']⟩) ⬝ (Re.opt (Re.ch '.'))])) ⬝ (.star true (Re.space)) ⬝ (.behind true [⟨false, false, [.ch '/', .digit]⟩]) ⬝ (.group G.vol (Re.alts [(Re.opt ((.set ⟨false, false, [.range 'A' 'Z', .range 'a' 'z']⟩) ⬝ (.star true (Re.space)) ⬝ (Re.opt (.set ⟨false, false, [.ch ',', .space, .ch ':', .ch '-']⟩)) ⬝ (.star true (Re.space)))) ⬝ .group G.vol_num (Re.alts [Re.plus (Re.digit), (.behind true [⟨false, false, [.word]⟩]) ⬝ (Re.plus (.set ⟨false, false, [.ch 'X', .ch 'x', .ch 'V', .ch 'v', .ch 'I', .ch 'i']⟩)) ⬝ (.look true (Re.word))]), (.group G.vol_num_alt (Re.alts [Re.plus (Re.digit), (.behind true [⟨false, false, [.word]⟩]) ⬝ (Re.plus (.set ⟨false, false, [.ch 'X', .ch 'x', .ch 'V', .ch 'v', .ch 'I', .ch 'i']⟩)) ⬝ (.look true (Re.word))])) ⬝ (.set ⟨false, false, [.range 'A' 'Z', .range 'a' 'z']⟩), (Re.opt ((.set ⟨false, false, [.range 'A' 'Z', .range 'a' 'z']⟩) ⬝ (Re.opt (Re.space)))) ⬝ (.group G.vol_num_alt2 (Re.plus (Re.digit))) ⬝ (.star true (Re.space)) ⬝ (Re.ch '-') ⬝ (.star true (Re.space)) ⬝ (Re.opt ((.set ⟨false, false, [.range 'A' 'Z', .range 'a' 'z']⟩) ⬝ (Re.opt (Re.space)))) ⬝ (Re.plus (Re.digit))])) ⬝ (Re.opt ((.star true (Re.space)) ⬝ (Re.ch '(') ⬝ (Re.rep 1 2 (Re.digit)) ⬝ (Re.opt ((Re.ch '-') ⬝ Re.digit)) ⬝ (Re.ch ')'))) ⬝ (Re.opt ((.star true (Re.space)) ⬝ (.set ⟨false, false, [.ch ',', .space, .ch ':', .ch '-']⟩) ⬝ (.star true (Re.space)) ⬝ .group G.vol_sub ((.set ⟨false, false, [.ch 'N', .ch 'n']⟩) ⬝ (.set ⟨false, false, [.ch 'o', .ch 'O', .ch '\u00b0']⟩) ⬝ (Re.opt (Re.ch '.')) ⬝ (.star true (Re.space)) ⬝ (Re.rep 1 6 (Re.digit))))) ⬝ (Re.opt ((.star true (Re.space)) ⬝ (.set ⟨false, false, [.ch ',', .space, .ch ':', .ch '-']⟩) ⬝ (.star true (Re.space)) ⬝ (.set ⟨false, false, [.ch '(', .ch '[']⟩) ⬝ (.star true (Re.space)) ⬝ (Re.alts [(.set ⟨false, false, [.ch 'F', .ch 'f']⟩) ⬝ (.set ⟨false, false, [.ch 'S', .ch 's']⟩), (.set ⟨false, false, [.ch 'P', .ch 'p']⟩) ⬝ (.set ⟨false, false, [.ch 'M', .ch 'm']⟩)]) ⬝ (.star true (Re.space)) ⬝ (Re.rep 0 4 (Re.digit)) ⬝ (.star true (Re.space)) ⬝ (.set ⟨false, false, [.ch ')', .ch ']']⟩))) ⬝ (Re.alts [(.star true (Re.space)) ⬝ (.set ⟨false, false, [.ch ',', .space, .ch ':', .ch '-']⟩) ⬝ (.star true (Re.space)), .look false (Re.ch '(')]) ⬝ (Re.opt (Re.ch '(')) ⬝ (Re.opt ((Re.alts [(.set ⟨false, false, [.ch 'J', .ch 'j']⟩) ⬝ (.str (py! "an")), (.set ⟨false, false, [.ch 'F', .ch 'f']⟩) ⬝ (.str (py! "eb")), (.set ⟨false, false, [.ch 'M', .ch 'm']⟩) ⬝ (.str (py! "ar")), (.set ⟨false, false, [.ch 'A', .ch 'a']⟩) ⬝ (.str (py! "pr")), (.set ⟨false, false, [.ch 'M', .ch 'm']⟩) ⬝ (.str (py! "ay")), (.set ⟨false, false, [.ch 'J', .ch 'j']⟩) ⬝ (.str (py! "un")), (.set ⟨false, false, [.ch 'J', .ch 'j']⟩) ⬝ (.str (py! "ul")), (.set ⟨false, false, [.ch 'A', .ch 'a']⟩) ⬝ (.str (py! "ug")), (.set ⟨false, false, [.ch 'S', .ch 's']⟩) ⬝ (.str (py! "ep")), (.set ⟨false, false, [.ch 'O', .ch 'o']⟩) ⬝ (.str (py! "ct")), (.set ⟨false, false, [.ch 'N', .ch 'n']⟩) ⬝ (.str (py! "ov")), (.set ⟨false, false, [.ch 'D', .ch 'd']⟩) ⬝ (.str (py! "ec"))]) ⬝ (Re.opt (Re.ch '.')) ⬝ (.set ⟨false, false, [.ch ',', .space]⟩) ⬝ (.star true (Re.space)))) ⬝ (Re.opt ((Re.alts [(.set ⟨false, false, [.ch 'J', .ch 'j']⟩) ⬝ (.str (py! "anuary")), (.set ⟨false, false, [.ch 'F', .ch 'f']⟩) ⬝ (.str (py! "ebruary")), (.set ⟨false, false, [.ch 'M', .ch 'm']⟩) ⬝ (.str (py! "arch")), (.set ⟨false, false, [.ch 'A', .ch 'a']⟩) ⬝ (.str (py! "pril")), (.set ⟨false, false, [.ch 'M', .ch 'm']⟩) ⬝ (.str (py! "ay")), (.set ⟨false, false, [.ch 'J', .ch 'j']⟩) ⬝ (.str (py! "une")), (.set ⟨false, false, [.ch 'J', .ch 'j']⟩) ⬝ (.str (py! "uly")), (.set ⟨false, false, [.ch 'A', .ch 'a']⟩) ⬝ (.str (py! "ugust")), (.set ⟨false, false, [.ch 'S', .ch 's']⟩) ⬝ (.str (py! "eptember")), (.set ⟨false, false, [.ch 'O', .ch 'o']⟩) ⬝ (.str (py! "ctober")), (.set ⟨false, false, [.ch 'N', .ch 'n']⟩) ⬝ (.str (py! "ovember")), (.set ⟨false, false, [.ch 'D', .ch 'd']⟩) ⬝ (.str (py! "ecember"))]) ⬝ (Re.opt (Re.ch '.')) ⬝ (.set ⟨false, false, [.ch ',', .space]⟩) ⬝ (.star true (Re.space)))) ⬝ (.behind true [⟨false, false, [.digit]⟩]) ⬝ (.group G.year ((Re.opt (.set ⟨false, false, [.range 'A' 'Z', .range 'a' 'z']⟩)) ⬝ (Re.alts [.str (py! "19"), .str (py! "20")]) ⬝ (Re.times 2 (Re.digit)))) ⬝ (Re.opt (.set ⟨false, false, [.range 'A' 'Z', .range 'a' 'z']⟩)) ⬝ (.look true (Re.digit)) ⬝ (Re.opt (Re.ch ')')) ⬝ (Re.alts [(.star true (Re.space)) ⬝ (.set ⟨false, false, [.ch ',', .space, .ch ':', .ch '-']⟩) ⬝ (.star true (Re.space)), .behind false [⟨false, false, [.ch ')']⟩]]) ⬝ Re.alts [.group G.jinst_page ((.set ⟨false, false, [.ch 'p', .ch 'P']⟩) ⬝ (Re.times 5 (Re.digit)) ⬝ (.star true (Re.digit))), (Re.opt (.set ⟨false, false, [.ch 'p', .ch 'P']⟩)) ⬝ (Re.opt (Re.ch 'p')) ⬝ (Re.opt (Re.ch '.')) ⬝ (Re.opt (Re.space)) ⬝ (.group G.page ((Re.opt (.set ⟨false, false, [.ch 'R', .ch 'L']⟩)) ⬝ (Re.opt (Re.word)) ⬝ (Re.plus (Re.digit)) ⬝ (Re.opt (.set ⟨false, false, [.ch 'c', .ch 'C']⟩)))) ⬝ Re.opt ((.star true (Re.space)) ⬝ (Re.ch '-') ⬝ (.star true (Re.space)) ⬝ .group G.page_end ((Re.opt (.set ⟨false, false, [.ch 'R', .ch 'L']⟩)) ⬝ (Re.opt (Re.word)) ⬝ (Re.plus (Re.digit)) ⬝ (Re.opt (.set ⟨false, false, [.ch 'c', .ch 'C']⟩))))]

/-- `refextract/references/regexs.py:730-740 re_numeration_vol_nucphys_yr_subvol_page` flags X
```
\s*[,\s:-]?\s*\b(?:(?:[Vv]o?l?\.?|[Nn][oO°]\.?))?\s*(?<![\/\d])(?P<vol>(?:(?:[A-Za-z]\s*[,\s:-]?\s*)?(?P<vol_num>\d+|(?:(?<!\w)[XxVvIi]+(?!\w))))|(?:(?P<vol_num_alt>\d+|(?:(?<!\w)[XxVvIi]+(?!\w)))(?:[A-Za-z]))|(?:(?:[A-Za-z]\s?)?(?P<vol_num_alt2>\d+)\s*\-\s*(?:[A-Za-z]\s?)?\d+))(?:\s*\(\d{1,2}(?:-\d)?\))?(?:\s*[,\s:-]\s*(?:[\(\[]\s*(?:[Ff][Ss]|[Pp][Mm])\s*\d{0,4}\s*[\)\]]))?(?:\s*[,\s:-]\s*|(?=\())
    \(?
    (?:(?:(?:
[Jj]an|[Ff]eb|[Mm]ar|[Aa]pr|[Mm]ay|[Jj]un|
[Jj]ul|[Aa]ug|[Ss]ep|[Oo]ct|[Nn]ov|[Dd]ec
)\.?)[,\s]\s*)?  # Jul, 1980
    (?:(?:(?:
[Jj]anuary|[Ff]ebruary|[Mm]arch|[Aa]pril|[Mm]ay|[Jj]une|
[Jj]uly|[Aa]ugust|[Ss]eptember|[Oo]ctober|[Nn]ovember|[Dd]ecember
)\.?)[,\s]\s*)?        # July, 1980
    (?<!\d)
    (?P<year>[A-Za-z]?(?:19|20)\d{2})(?:[A-Za-z]?)
    (?!\d)
    \)?
(?:\s*[,\s:-]\s*(?P<vol_sub>[Nn][oO°]\.?\s*\d{1,6}))?\s*[,\s:-]\s*((?P<jinst_page>[pP]\d{5}\d*)|[pP]?[p]?\.?\s?(?P<page>[RL]?\w?\d+[cC]?)(?:\s*-\s*(?P<page_end>[RL]?\w?\d+[cC]?))?)
```
-/
def re_numeration_vol_nucphys_yr_subvol_page : Re :=
  (.star true (Re.space)) ⬝ (Re.opt (.set ⟨false, false, [.ch ',', .space, .ch ':', .ch '-']⟩)) ⬝ (.star true (Re.space)) ⬝ .wordb ⬝ (Re.opt (Re.alts [(.set ⟨false, false, [.ch 'V', .ch 'v']⟩) ⬝ (Re.opt (Re.ch 'o')) ⬝ (Re.opt (Re.ch 'l')) ⬝ (Re.opt (Re.ch '.')), (.set ⟨false, false, [.ch 'N', .ch 'n']⟩) ⬝ (.set ⟨false, false, [.ch 'o', .ch 'O', .ch '\u00b0']⟩) ⬝ (Re.opt (Re.ch '.'))])) ⬝ (.star true (Re.space)) ⬝ (.behind true [⟨false, false, [.ch '/', .digit]⟩]) ⬝ (.group G.vol (Re.alts [(Re.opt ((.set ⟨false, false, [.range 'A' 'Z', .range 'a' 'z']⟩) ⬝ (.star true (Re.space)) ⬝ (Re.opt (.set ⟨false, false, [.ch ',', .space, .ch ':', .ch '-']⟩)) ⬝ (.star true (Re.space)))) ⬝ .group G.vol_num (Re.alts [Re.plus (Re.digit), (.behind true [⟨false, false, [.word]⟩]) ⬝ (Re.plus (.set ⟨false, false, [.ch 'X', .ch 'x', .ch 'V', .ch 'v', .ch 'I', .ch 'i']⟩)) ⬝ (.look true (Re.word))]), (.group G.vol_num_alt (Re.alts [Re.plus (Re.digit), (.behind true [⟨false, false, [.word]⟩]) ⬝ (Re.plus (.set ⟨false, false, [.ch 'X', .ch 'x', .ch 'V', .ch 'v', .ch 'I', .ch 'i']⟩)) ⬝ (.look true (Re.word))])) ⬝ (.set ⟨false, false, [.range 'A' 'Z', .range 'a' 'z']⟩), (Re.opt ((.set ⟨false, false, [.range 'A' 'Z', .range 'a' 'z']⟩) ⬝ (Re.opt (Re.space)))) ⬝ (.group G.vol_num_alt2 (Re.plus (Re.digit))) ⬝ (.star true (Re.space)) ⬝ (Re.ch '-') ⬝ (.star true (Re.space)) ⬝ (Re.opt ((.set ⟨false, false, [.range 'A' 'Z', .range 'a' 'z']⟩) ⬝ (Re.opt (Re.space)))) ⬝ (Re.plus (Re.digit))])) ⬝ (Re.opt ((.star true (Re.space)) ⬝ (Re.ch '(') ⬝ (Re.rep 1 2 (Re.digit)) ⬝ (Re.opt ((Re.ch '-') ⬝ Re.digit)) ⬝ (Re.ch ')'))) ⬝ (Re.opt ((.star true (Re.space)) ⬝ (.set ⟨false, false, [.ch ',', .space, .ch ':', .ch '-']⟩) ⬝ (.star true (Re.space)) ⬝ (.set ⟨false, false, [.ch '(', .ch '[']⟩) ⬝ (.star true (Re.space)) ⬝ (Re.alts [(.set ⟨false, false, [.ch 'F', .ch 'f']⟩) ⬝ (.set ⟨false, false, [.ch 'S', .ch 's']⟩), (.set ⟨false, false, [.ch 'P', .ch 'p']⟩) ⬝ (.set ⟨false, false, [.ch 'M', .ch 'm']⟩)]) ⬝ (.star true (Re.space)) ⬝ (Re.rep 0 4 (Re.digit)) ⬝ (.star true (Re.space)) ⬝ (.set ⟨false, false, [.ch ')', .ch ']']⟩))) ⬝ (Re.alts [(.star true (Re.space)) ⬝ (.set ⟨false, false, [.ch ',', .space, .ch ':', .ch '-']⟩) ⬝ (.star true (Re.space)), .look false (Re.ch '(')]) ⬝ (Re.opt (Re.ch '(')) ⬝ (Re.opt ((Re.alts [(.set ⟨false, false, [.ch 'J', .ch 'j']⟩) ⬝ (.str (py! "an")), (.set ⟨false, false, [.ch 'F', .ch 'f']⟩) ⬝ (.str (py! "eb")), (.set ⟨false, false, [.ch 'M', .ch 'm']⟩) ⬝ (.str (py! "ar")), (.set ⟨false, false, [.ch 'A', .ch 'a']⟩) ⬝ (.str (py! "pr")), (.set ⟨false, false, [.ch 'M', .ch 'm']⟩) ⬝ (.str (py! "ay")), (.set ⟨false, false, [.ch 'J', .ch 'j']⟩) ⬝ (.str (py! "un")), (.set ⟨false, false, [.ch 'J', .ch 'j']⟩) ⬝ (.str (py! "ul")), (.set ⟨false, false, [.ch 'A', .ch 'a']⟩) ⬝ (.str (py! "ug")), (.set ⟨false, false, [.ch 'S', .ch 's']⟩) ⬝ (.str (py! "ep")), (.set ⟨false, false, [.ch 'O', .ch 'o']⟩) ⬝ (.str (py! "ct")), (.set ⟨false, false, [.ch 'N', .ch 'n']⟩) ⬝ (.str (py! "ov")), (.set ⟨false, false, [.ch 'D', .ch 'd']⟩) ⬝ (.str (py! "ec"))]) ⬝ (Re.opt (Re.ch '.')) ⬝ (.set ⟨false, false, [.ch ',', .space]⟩) ⬝ (.star true (Re.space)))) ⬝ (Re.opt ((Re.alts [(.set ⟨false, false, [.ch 'J', .ch 'j']⟩) ⬝ (.str (py! "anuary")), (.set ⟨false, false, [.ch 'F', .ch 'f']⟩) ⬝ (.str (py! "ebruary")), (.set ⟨false, false, [.ch 'M', .ch 'm']⟩) ⬝ (.str (py! "arch")), (.set ⟨false, false, [.ch 'A', .ch 'a']⟩) ⬝ (.str (py! "pril")), (.set ⟨false, false, [.ch 'M', .ch 'm']⟩) ⬝ (.str (py! "ay")), (.set ⟨false, false, [.ch 'J', .ch 'j']⟩) ⬝ (.str (py! "une")), (.set ⟨false, false, [.ch 'J', .ch 'j']⟩) ⬝ (.str (py! "uly")), (.set ⟨false, false, [.ch 'A', .ch 'a']⟩) ⬝ (.str (py! "ugust")), (.set ⟨false, false, [.ch 'S', .ch 's']⟩) ⬝ (.str (py! "eptember")), (.set ⟨false, false, [.ch 'O', .ch 'o']⟩) ⬝ (.str (py! "ctober")), (.set ⟨false, false, [.ch 'N', .ch 'n']⟩) ⬝ (.str (py! "ovember")), (.set ⟨false, false, [.ch 'D', .ch 'd']⟩) ⬝ (.str (py! "ecember"))]) ⬝ (Re.opt (Re.ch '.')) ⬝ (.set ⟨false, false, [.ch ',', .space]⟩) ⬝ (.star true (Re.space)))) ⬝ (.behind true [⟨false, false, [.digit]⟩]) ⬝ (.group G.year ((Re.opt (.set ⟨false, false, [.range 'A' 'Z', .range 'a' 'z']⟩)) ⬝ (Re.alts [.str (py! "19"), .str (py! "20")]) ⬝ (Re.times 2 (Re.digit)))) ⬝ (Re.opt (.set ⟨false, false, [.range 'A' 'Z', .range 'a' 'z']⟩)) ⬝ (.look true (Re.digit)) ⬝ (Re.opt (Re.ch ')')) ⬝ (Re.opt ((.star true (Re.space)) ⬝ (.set ⟨false, false, [.ch ',', .space, .ch ':', .ch '-']⟩) ⬝ (.star true (Re.space)) ⬝ .group G.vol_sub ((.set ⟨false, false, [.ch 'N', .ch 'n']⟩) ⬝ (.set ⟨false, false, [.ch 'o', .ch 'O', .ch '\u00b0']⟩) ⬝ (Re.opt (Re.ch '.')) ⬝ (.star true (Re.space)) ⬝ (Re.rep 1 6 (Re.digit))))) ⬝ (.star true (Re.space)) ⬝ (.set ⟨false, false, [.ch ',', .space, .ch ':', .ch '-']⟩) ⬝ (.star true (Re.space)) ⬝ Re.alts [.group G.jinst_page ((.set ⟨false, false, [.ch 'p', .ch 'P']⟩) ⬝ (Re.times 5 (Re.digit)) ⬝ (.star true (Re.digit))), (Re.opt (.set ⟨false, false, [.ch 'p', .ch 'P']⟩)) ⬝ (Re.opt (Re.ch 'p')) ⬝ (Re.opt (Re.ch '.')) ⬝ (Re.opt (Re.space)) ⬝ (.group G.page ((Re.opt (.set ⟨false, false, [.ch 'R', .ch 'L']⟩)) ⬝ (Re.opt (Re.word)) ⬝ (Re.plus (Re.digit)) ⬝ (Re.opt (.set ⟨false, false, [.ch 'c', .ch 'C']⟩)))) ⬝ Re.opt ((.star true (Re.space)) ⬝ (Re.ch '-') ⬝ (.star true (Re.space)) ⬝ .group G.page_end ((Re.opt (.set ⟨false, false, [.ch 'R', .ch 'L']⟩)) ⬝ (Re.opt (Re.word)) ⬝ (Re.plus (Re.digit)) ⬝ (Re.opt (.set ⟨false, false, [.ch 'c', .ch 'C']⟩))))]

/-- `refextract/references/regexs.py:743-755 re_numeration_nucphys_vol_yr_page` flags X
```
\s*[,\s:-]?\s*(?:[\(\[]\s*(?:[Ff][Ss]|[Pp][Mm])\s*\d{0,4}\s*[\)\]])\s*[,\s:-]\s*\b(?:(?:[Vv]o?l?\.?|[Nn][oO°]\.?))?\s*(?<![\/\d])(?P<vol>(?:(?:[A-Za-z]\s*[,\s:-]?\s*)?(?P<vol_num>\d+|(?:(?<!\w)[XxVvIi]+(?!\w))))|(?:(?P<vol_num_alt>\d+|(?:(?<!\w)[XxVvIi]+(?!\w)))(?:[A-Za-z]))|(?:(?:[A-Za-z]\s?)?(?P<vol_num_alt2>\d+)\s*\-\s*(?:[A-Za-z]\s?)?\d+))(?:\s*\(\d{1,2}(?:-\d)?\))?(?:\s*[,\s:-]\s*|(?=\())
    \(?
    (?:(?:(?:
[Jj]an|[Ff]eb|[Mm]ar|[Aa]pr|[Mm]ay|[Jj]un|
[Jj]ul|[Aa]ug|[Ss]ep|[Oo]ct|[Nn]ov|[Dd]ec
)\.?)[,\s]\s*)?  # Jul, 1980
    (?:(?:(?:
[Jj]anuary|[Ff]ebruary|[Mm]arch|[Aa]pril|[Mm]ay|[Jj]une|
[Jj]uly|[Aa]ugust|[Ss]eptember|[Oo]ctober|[Nn]ovember|[Dd]ecember
)\.?)[,\s]\s*)?        # July, 1980
    (?<!\d)
    (?P<year>[A-Za-z]?(?:19|20)\d{2})(?:[A-Za-z]?)
    (?!\d)
    \)?
(?:\s*[,\s:-]\s*|(?<=\)))((?P<jinst_page>[pP]\d{5}\d*)|[pP]?[p]?\.?\s?(?P<page>[RL]?\w?\d+[cC]?)(?:\s*-\s*(?P<page_end>[RL]?\w?\d+[cC]?))?)
```
-/
def re_numeration_nucphys_vol_yr_page : Re :=
  (.star true (Re.space)) ⬝ (Re.opt (.set ⟨false, false, [.ch ',', .space, .ch ':', .ch '-']⟩)) ⬝ (.star true (Re.space)) ⬝ (.set ⟨false, false, [.ch '(', .ch '[']⟩) ⬝ (.star true (Re.space)) ⬝ (Re.alts [(.set ⟨false, false, [.ch 'F', .ch 'f']⟩) ⬝ (.set ⟨false, false, [.ch 'S', .ch 's']⟩), (.set ⟨false, false, [.ch 'P', .ch 'p']⟩) ⬝ (.set ⟨false, false, [.ch 'M', .ch 'm']⟩)]) ⬝ (.star true (Re.space)) ⬝ (Re.rep 0 4 (Re.digit)) ⬝ (.star true (Re.space)) ⬝ (.set ⟨false, false, [.ch ')', .ch ']']⟩) ⬝ (.star true (Re.space)) ⬝ (.set ⟨false, false, [.ch ',', .space, .ch ':', .ch '-']⟩) ⬝ (.star true (Re.space)) ⬝ .wordb ⬝ (Re.opt (Re.alts [(.set ⟨false, false, [.ch 'V', .ch 'v']⟩) ⬝ (Re.opt (Re.ch 'o')) ⬝ (Re.opt (Re.ch 'l')) ⬝ (Re.opt (Re.ch '.')), (.set ⟨false, false, [.ch 'N', .ch 'n']⟩) ⬝ (.set ⟨false, false, [.ch 'o', .ch 'O', .ch '\u00b0']⟩) ⬝ (Re.opt (Re.ch '.'))])) ⬝ (.star true (Re.space)) ⬝ (.behind true [⟨false, false, [.ch '/', .digit]⟩]) ⬝ (.group G.vol (Re.alts [(Re.opt ((.set ⟨false, false, [.range 'A' 'Z', .range 'a' 'z']⟩) ⬝ (.star true (Re.space)) ⬝ (Re.opt (.set ⟨false, false, [.ch ',', .space, .ch ':', .ch '-']⟩)) ⬝ (.star true (Re.space)))) ⬝ .group G.vol_num (Re.alts [Re.plus (Re.digit), (.behind true [⟨false, false, [.word]⟩]) ⬝ (Re.plus (.set ⟨false, false, [.ch 'X', .ch 'x', .ch 'V', .ch 'v', .ch 'I', .ch 'i']⟩)) ⬝ (.look true (Re.word))]), (.group G.vol_num_alt (Re.alts [Re.plus (Re.digit), (.behind true [⟨false, false, [.word]⟩]) ⬝ (Re.plus (.set ⟨false, false, [.ch 'X', .ch 'x', .ch 'V', .ch 'v', .ch 'I', .ch 'i']⟩)) ⬝ (.look true (Re.word))])) ⬝ (.set ⟨false, false, [.range 'A' 'Z', .range 'a' 'z']⟩), (Re.opt ((.set ⟨false, false, [.range 'A' 'Z', .range 'a' 'z']⟩) ⬝ (Re.opt (Re.space)))) ⬝ (.group G.vol_num_alt2 (Re.plus (Re.digit))) ⬝ (.star true (Re.space)) ⬝ (Re.ch '-') ⬝ (.star true (Re.space)) ⬝ (Re.opt ((.set ⟨false, false, [.range 'A' 'Z', .range 'a' 'z']⟩) ⬝ (Re.opt (Re.space)))) ⬝ (Re.plus (Re.digit))])) ⬝ (Re.opt ((.star true (Re.space)) ⬝ (Re.ch '(') ⬝ (Re.rep 1 2 (Re.digit)) ⬝ (Re.opt ((Re.ch '-') ⬝ Re.digit)) ⬝ (Re.ch ')'))) ⬝ (Re.alts [(.star true (Re.space)) ⬝ (.set ⟨false, false, [.ch ',', .space, .ch ':', .ch '-']⟩) ⬝ (.star true (Re.space)), .look false (Re.ch '(')]) ⬝ (Re.opt (Re.ch '(')) ⬝ (Re.opt ((Re.alts [(.set ⟨false, false, [.ch 'J', .ch 'j']⟩) ⬝ (.str (py! "an")), (.set ⟨false, false, [.ch 'F', .ch 'f']⟩) ⬝ (.str (py! "eb")), (.set ⟨false, false, [.ch 'M', .ch 'm']⟩) ⬝ (.str (py! "ar")), (.set ⟨false, false, [.ch 'A', .ch 'a']⟩) ⬝ (.str (py! "pr")), (.set ⟨false, false, [.ch 'M', .ch 'm']⟩) ⬝ (.str (py! "ay")), (.set ⟨false, false, [.ch 'J', .ch 'j']⟩) ⬝ (.str (py! "un")), (.set ⟨false, false, [.ch 'J', .ch 'j']⟩) ⬝ (.str (py! "ul")), (.set ⟨false, false, [.ch 'A', .ch 'a']⟩) ⬝ (.str (py! "ug")), (.set ⟨false, false, [.ch 'S', .ch 's']⟩) ⬝ (.str (py! "ep")), (.set ⟨false, false, [.ch 'O', .ch 'o']⟩) ⬝ (.str (py! "ct")), (.set ⟨false, false, [.ch 'N', .ch 'n']⟩) ⬝ (.str (py! "ov")), (.set ⟨false, false, [.ch 'D', .ch 'd']⟩) ⬝ (.str (py! "ec"))]) ⬝ (Re.opt (Re.ch '.')) ⬝ (.set ⟨false, false, [.ch ',', .space]⟩) ⬝ (.star true (Re.space)))) ⬝ (Re.opt ((Re.alts [(.set ⟨false, false, [.ch 'J', .ch 'j']⟩) ⬝ (.str (py! "anuary")), (.set ⟨false, false, [.ch 'F', .ch 'f']⟩) ⬝ (.str (py! "ebruary")), (.set ⟨false, false, [.ch 'M', .ch 'm']⟩) ⬝ (.str (py! "arch")), (.set ⟨false, false, [.ch 'A', .ch 'a']⟩) ⬝ (.str (py! "pril")), (.set ⟨false, false, [.ch 'M', .ch 'm']⟩) ⬝ (.str (py! "ay")), (.set ⟨false, false, [.ch 'J', .ch 'j']⟩) ⬝ (.str (py! "une")), (.set ⟨false, false, [.ch 'J', .ch 'j']⟩) ⬝ (.str (py! "uly")), (.set ⟨false, false, [.ch 'A', .ch 'a']⟩) ⬝ (.str (py! "ugust")), (.set ⟨false, false, [.ch 'S', .ch 's']⟩) ⬝ (.str (py! "eptember")), (.set ⟨false, false, [.ch 'O', .ch 'o']⟩) ⬝ (.str (py! "ctober")), (.set ⟨false, false, [.ch 'N', .ch 'n']⟩) ⬝ (.str (py! "ovember")), (.set ⟨false, false, [.ch 'D', .ch 'd']⟩) ⬝ (.str (py! "ecember"))]) ⬝ (Re.opt (Re.ch '.')) ⬝ (.set ⟨false, false, [.ch ',', .space]⟩) ⬝ (.star true (Re.space)))) ⬝ (.behind true [⟨false, false, [.digit]⟩]) ⬝ (.group G.year ((Re.opt (.set ⟨false, false, [.range 'A' 'Z', .range 'a' 'z']⟩)) ⬝ (Re.alts [.str (py! "19"), .str (py! "20")]) ⬝ (Re.times 2 (Re.digit)))) ⬝ (Re.opt (.set ⟨false, false, [.range 'A' 'Z', .range 'a' 'z']⟩)) ⬝ (.look true (Re.digit)) ⬝ (Re.opt (Re.ch ')')) ⬝ (Re.alts [(.star true (Re.space)) ⬝ (.set ⟨false, false, [.ch ',', .space, .ch ':', .ch '-']⟩) ⬝ (.star true (Re.space)), .behind false [⟨false, false, [.ch ')']⟩]]) ⬝ Re.alts [.group G.jinst_page ((.set ⟨false, false, [.ch 'p', .ch 'P']⟩) ⬝ (Re.times 5 (Re.digit)) ⬝ (.star true (Re.digit))), (Re.opt (.set ⟨false, false, [.ch 'p', .ch 'P']⟩)) ⬝ (Re.opt (Re.ch 'p')) ⬝ (Re.opt (Re.ch '.')) ⬝ (Re.opt (Re.space)) ⬝ (.group G.page ((Re.opt (.set ⟨false, false, [.ch 'R', .ch 'L']⟩)) ⬝ (Re.opt (Re.word)) ⬝ (Re.plus (Re.digit)) ⬝ (Re.opt (.set ⟨false, false, [.ch 'c', .ch 'C']⟩)))) ⬝ Re.opt ((.star true (Re.space)) ⬝ (Re.ch '-') ⬝ (.star true (Re.space)) ⬝ .group G.page_end ((Re.opt (.set ⟨false, false, [.ch 'R', .ch 'L']⟩)) ⬝ (Re.opt (Re.word)) ⬝ (Re.plus (Re.digit)) ⬝ (Re.opt (.set ⟨false, false, [.ch 'c', .ch 'C']⟩))))]

/-- `refextract/references/regexs.py:771-782 re_numeration_vol_nucphys_series_yr_page` flags X
```
\s*[,\s:-]?\s*\b(?:(?:[Vv]o?l?\.?|[Nn][oO°]\.?))?\s*(?<![\/\d])(?P<vol>(?:(?:[A-Za-z]\s*[,\s:-]?\s*)?(?P<vol_num>\d+|(?:(?<!\w)[XxVvIi]+(?!\w))))|(?:(?P<vol_num_alt>\d+|(?:(?<!\w)[XxVvIi]+(?!\w)))(?:[A-Za-z]))|(?:(?:[A-Za-z]\s?)?(?P<vol_num_alt2>\d+)\s*\-\s*(?:[A-Za-z]\s?)?\d+))(?:\s*\(\d{1,2}(?:-\d)?\))?(?:\s*[,\s:-]\s*(?:[\(\[]\s*(?:[Ff][Ss]|[Pp][Mm])\s*\d{0,4}\s*[\)\]]))?\s*[,\s:-]\s*(?P<series>[A-H])(?:\s*[,\s:-]\s*|(?=\())
    \(?
    (?:(?:(?:
[Jj]an|[Ff]eb|[Mm]ar|[Aa]pr|[Mm]ay|[Jj]un|
[Jj]ul|[Aa]ug|[Ss]ep|[Oo]ct|[Nn]ov|[Dd]ec
)\.?)[,\s]\s*)?  # Jul, 1980
    (?:(?:(?:
[Jj]anuary|[Ff]ebruary|[Mm]arch|[Aa]pril|[Mm]ay|[Jj]une|
[Jj]uly|[Aa]ugust|[Ss]eptember|[Oo]ctober|[Nn]ovember|[Dd]ecember
)\.?)[,\s]\s*)?        # July, 1980
    (?<!\d)
    (?P<year>[A-Za-z]?(?:19|20)\d{2})(?:[A-Za-z]?)
    (?!\d)
    \)?
(?:\s*[,\s:-]\s*|(?<=\)))((?P<jinst_page>[pP]\d{5}\d*)|[pP]?[p]?\.?\s?(?P<page>[RL]?\w?\d+[cC]?)(?:\s*-\s*(?P<page_end>[RL]?\w?\d+[cC]?))?)
```
-/
def re_numeration_vol_nucphys_series_yr_page : Re :=
  (.star true (Re.space)) ⬝ (Re.opt (.set ⟨false, false, [.ch ',', .space, .ch ':', .ch '-']⟩)) ⬝ (.star true (Re.space)) ⬝ .wordb ⬝ (Re.opt (Re.alts [(.set ⟨false, false, [.ch 'V', .ch 'v']⟩) ⬝ (Re.opt (Re.ch 'o')) ⬝ (Re.opt (Re.ch 'l')) ⬝ (Re.opt (Re.ch '.')), (.set ⟨false, false, [.ch 'N', .ch 'n']⟩) ⬝ (.set ⟨false, false, [.ch 'o', .ch 'O', .ch '\u00b0']⟩) ⬝ (Re.opt (Re.ch '.'))])) ⬝ (.star true (Re.space)) ⬝ (.behind true [⟨false, false, [.ch '/', .digit]⟩]) ⬝ (.group G.vol (Re.alts [(Re.opt ((.set ⟨false, false, [.range 'A' 'Z', .range 'a' 'z']⟩) ⬝ (.star true (Re.space)) ⬝ (Re.opt (.set ⟨false, false, [.ch ',', .space, .ch ':', .ch '-']⟩)) ⬝ (.star true (Re.space)))) ⬝ .group G.vol_num (Re.alts [Re.plus (Re.digit), (.behind true [⟨false, false, [.word]⟩]) ⬝ (Re.plus (.set ⟨false, false, [.ch 'X', .ch 'x', .ch 'V', .ch 'v', .ch 'I', .ch 'i']⟩)) ⬝ (.look true (Re.word))]), (.group G.vol_num_alt (Re.alts [Re.plus (Re.digit), (.behind true [⟨false, false, [.word]⟩]) ⬝ (Re.plus (.set ⟨false, false, [.ch 'X', .ch 'x', .ch 'V', .ch 'v', .ch 'I', .ch 'i']⟩)) ⬝ (.look true (Re.word))])) ⬝ (.set ⟨false, false, [.range 'A' 'Z', .range 'a' 'z']⟩), (Re.opt ((.set ⟨false, false, [.range 'A' 'Z', .range 'a' 'z']⟩) ⬝ (Re.opt (Re.space)))) ⬝ (.group G.vol_num_alt2 (Re.plus (Re.digit))) ⬝ (.star true (Re.space)) ⬝ (Re.ch '-') ⬝ (.star true (Re.space)) ⬝ (Re.opt ((.set ⟨false, false, [.range 'A' 'Z', .range 'a' 'z']⟩) ⬝ (Re.opt (Re.space)))) ⬝ (Re.plus (Re.digit))])) ⬝ (Re.opt ((.star true (Re.space)) ⬝ (Re.ch '(') ⬝ (Re.rep 1 2 (Re.digit)) ⬝ (Re.opt ((Re.ch '-') ⬝ Re.digit)) ⬝ (Re.ch ')'))) ⬝ (Re.opt ((.star true (Re.space)) ⬝ (.set ⟨false, false, [.ch ',', .space, .ch ':', .ch '-']⟩) ⬝ (.star true (Re.space)) ⬝ (.set ⟨false, false, [.ch '(', .ch '[']⟩) ⬝ (.star true (Re.space)) ⬝ (Re.alts [(.set ⟨false, false, [.ch 'F', .ch 'f']⟩) ⬝ (.set ⟨false, false, [.ch 'S', .ch 's']⟩), (.set ⟨false, false, [.ch 'P', .ch 'p']⟩) ⬝ (.set ⟨false, false, [.ch 'M', .ch 'm']⟩)]) ⬝ (.star true (Re.space)) ⬝ (Re.rep 0 4 (Re.digit)) ⬝ (.star true (Re.space)) ⬝ (.set ⟨false, false, [.ch ')', .ch ']']⟩))) ⬝ (.star true (Re.space)) ⬝ (.set ⟨false, false, [.ch ',', .space, .ch ':', .ch '-']⟩) ⬝ (.star true (Re.space)) ⬝ (.group G.series (.set ⟨false, false, [.range 'A' 'H']⟩)) ⬝ (Re.alts [(.star true (Re.space)) ⬝ (.set ⟨false, false, [.ch ',', .space, .ch ':', .ch '-']⟩) ⬝ (.star true (Re.space)), .look false (Re.ch '(')]) ⬝ (Re.opt (Re.ch '(')) ⬝ (Re.opt ((Re.alts [(.set ⟨false, false, [.ch 'J', .ch 'j']⟩) ⬝ (.str (py! "an")), (.set ⟨false, false, [.ch 'F', .ch 'f']⟩) ⬝ (.str (py! "eb")), (.set ⟨false, false, [.ch 'M', .ch 'm']⟩) ⬝ (.str (py! "ar")), (.set ⟨false, false, [.ch 'A', .ch 'a']⟩) ⬝ (.str (py! "pr")), (.set ⟨false, false, [.ch 'M', .ch 'm']⟩) ⬝ (.str (py! "ay")), (.set ⟨false, false, [.ch 'J', .ch 'j']⟩) ⬝ (.str (py! "un")), (.set ⟨false, false, [.ch 'J', .ch 'j']⟩) ⬝ (.str (py! "ul")), (.set ⟨false, false, [.ch 'A', .ch 'a']⟩) ⬝ (.str (py! "ug")), (.set ⟨false, false, [.ch 'S', .ch 's']⟩) ⬝ (.str (py! "ep")), (.set ⟨false, false, [.ch 'O', .ch 'o']⟩) ⬝ (.str (py! "ct")), (.set ⟨false, false, [.ch 'N', .ch 'n']⟩) ⬝ (.str (py! "ov")), (.set ⟨false, false, [.ch 'D', .ch 'd']⟩) ⬝ (.str (py! "ec"))]) ⬝ (Re.opt (Re.ch '.')) ⬝ (.set ⟨false, false, [.ch ',', .space]⟩) ⬝ (.star true (Re.space)))) ⬝ (Re.opt ((Re.alts [(.set ⟨false, false, [.ch 'J', .ch 'j']⟩) ⬝ (.str (py! "anuary")), (.set ⟨false, false, [.ch 'F', .ch 'f']⟩) ⬝ (.str (py! "ebruary")), (.set ⟨false, false, [.ch 'M', .ch 'm']⟩) ⬝ (.str (py! "arch")), (.set ⟨false, false, [.ch 'A', .ch 'a']⟩) ⬝ (.str (py! "pril")), (.set ⟨false, false, [.ch 'M', .ch 'm']⟩) ⬝ (.str (py! "ay")), (.set ⟨false, false, [.ch 'J', .ch 'j']⟩) ⬝ (.str (py! "une")), (.set ⟨false, false, [.ch 'J', .ch 'j']⟩) ⬝ (.str (py! "uly")), (.set ⟨false, false, [.ch 'A', .ch 'a']⟩) ⬝ (.str (py! "ugust")), (.set ⟨false, false, [.ch 'S', .ch 's']⟩) ⬝ (.str (py! "eptember")), (.set ⟨false, false, [.ch 'O', .ch 'o']⟩) ⬝ (.str (py! "ctober")), (.set ⟨false, false, [.ch 'N', .ch 'n']⟩) ⬝ (.str (py! "ovember")), (.set ⟨false, false, [.ch 'D', .ch 'd']⟩) ⬝ (.str (py! "ecember"))]) ⬝ (Re.opt (Re.ch '.')) ⬝ (.set ⟨false, false, [.ch ',', .space]⟩) ⬝ (.star true (Re.space)))) ⬝ (.behind true [⟨false, false, [.digit]⟩]) ⬝ (.group G.year ((Re.opt (.set ⟨false, false, [.range 'A' 'Z', .range 'a' 'z']⟩)) ⬝ (Re.alts [.str (py! "19"), .str (py! "20")]) ⬝ (Re.times 2 (Re.digit)))) ⬝ (Re.opt (.set ⟨false, false, [.range 'A' 'Z', .range 'a' 'z']⟩)) ⬝ (.look true (Re.digit)) ⬝ (Re.opt (Re.ch ')')) ⬝ (Re.alts [(.star true (Re.space)) ⬝ (.set ⟨false, false, [.ch ',', .space, .ch ':', .ch '-']⟩) ⬝ (.star true (Re.space)), .behind false [⟨false, false, [.ch ')']⟩]]) ⬝ Re.alts [.group G.jinst_page ((.set ⟨false, false, [.ch 'p', .ch 'P']⟩) ⬝ (Re.times 5 (Re.digit)) ⬝ (.star true (Re.digit))), (Re.opt (.set ⟨false, false, [.ch 'p', .ch 'P']⟩)) ⬝ (Re.opt (Re.ch 'p')) ⬝ (Re.opt (Re.ch '.')) ⬝ (Re.opt (Re.space)) ⬝ (.group G.page ((Re.opt (.set ⟨false, false, [.ch 'R', .ch 'L']⟩)) ⬝ (Re.opt (Re.word)) ⬝ (Re.plus (Re.digit)) ⬝ (Re.opt (.set ⟨false, false, [.ch 'c', .ch 'C']⟩)))) ⬝ Re.opt ((.star true (Re.space)) ⬝ (Re.ch '-') ⬝ (.star true (Re.space)) ⬝ .group G.page_end ((Re.opt (.set ⟨false, false, [.ch 'R', .ch 'L']⟩)) ⬝ (Re.opt (Re.word)) ⬝ (Re.plus (Re.digit)) ⬝ (Re.opt (.set ⟨false, false, [.ch 'c', .ch 'C']⟩))))]

/-- `refextract/references/regexs.py:786-797 re_numeration_vol_series_nucphys_page_yr` flags X
```
\s*[,\s:-]?\s*\b(?:(?:[Vv]o?l?\.?|[Nn][oO°]\.?))?\s*(?<![\/\d])(?P<vol>(?:(?:[A-Za-z]\s*[,\s:-]?\s*)?(?P<vol_num>\d+|(?:(?<!\w)[XxVvIi]+(?!\w))))|(?:(?P<vol_num_alt>\d+|(?:(?<!\w)[XxVvIi]+(?!\w)))(?:[A-Za-z]))|(?:(?:[A-Za-z]\s?)?(?P<vol_num_alt2>\d+)\s*\-\s*(?:[A-Za-z]\s?)?\d+))(?:\s*\(\d{1,2}(?:-\d)?\))?\s*[,\s:-]\s*(?P<series>[A-H])(?:\s*[,\s:-]\s*(?:[\(\[]\s*(?:[Ff][Ss]|[Pp][Mm])\s*\d{0,4}\s*[\)\]]))?\s*[,\s:-]\s*((?P<jinst_page>[pP]\d{5}\d*)|[pP]?[p]?\.?\s?(?P<page>[RL]?\w?\d+[cC]?)(?:\s*-\s*(?P<page_end>[RL]?\w?\d+[cC]?))?)\s*[,\s:-]\s*
    \(?
    (?:(?:(?:
[Jj]an|[Ff]eb|[Mm]ar|[Aa]pr|[Mm]ay|[Jj]un|
[Jj]ul|[Aa]ug|[Ss]ep|[Oo]ct|[Nn]ov|[Dd]ec
)\.?)[,\s]\s*)?  # Jul, 1980
    (?:(?:(?:
[Jj]anuary|[Ff]ebruary|[Mm]arch|[Aa]pril|[Mm]ay|[Jj]une|
[Jj]uly|[Aa]ugust|[Ss]eptember|[Oo]ctober|[Nn]ovember|[Dd]ecember
)\.?)[,\s]\s*)?        # July, 1980
    (?<!\d)
    (?P<year>[A-Za-z]?(?:19|20)\d{2})(?:[A-Za-z]?)
    (?!\d)
    \)?

```
-/
def re_numeration_vol_series_nucphys_page_yr : Re :=
  (.star true (Re.space)) ⬝ (Re.opt (.set ⟨false, false, [.ch ',', .space, .ch ':', .ch '-']⟩)) ⬝ (.star true (Re.space)) ⬝ .wordb ⬝ (Re.opt (Re.alts [(.set ⟨false, false, [.ch 'V', .ch 'v']⟩) ⬝ (Re.opt (Re.ch 'o')) ⬝ (Re.opt (Re.ch 'l')) ⬝ (Re.opt (Re.ch '.')), (.set ⟨false, false, [.ch 'N', .ch 'n']⟩) ⬝ (.set ⟨false, false, [.ch 'o', .ch 'O', .ch '\u00b0']⟩) ⬝ (Re.opt (Re.ch '.'))])) ⬝ (.star true (Re.space)) ⬝ (.behind true [⟨false, false, [.ch '/', .digit]⟩]) ⬝ (.group G.vol (Re.alts [(Re.opt ((.set ⟨false, false, [.range 'A' 'Z', .range 'a' 'z']⟩) ⬝ (.star true (Re.space)) ⬝ (Re.opt (.set ⟨false, false, [.ch ',', .space, .ch ':', .ch '-']⟩)) ⬝ (.star true (Re.space)))) ⬝ .group G.vol_num (Re.alts [Re.plus (Re.digit), (.behind true [⟨false, false, [.word]⟩]) ⬝ (Re.plus (.set ⟨false, false, [.ch 'X', .ch 'x', .ch 'V', .ch 'v', .ch 'I', .ch 'i']⟩)) ⬝ (.look true (Re.word))]), (.group G.vol_num_alt (Re.alts [Re.plus (Re.digit), (.behind true [⟨false, false, [.word]⟩]) ⬝ (Re.plus (.set ⟨false, false, [.ch 'X', .ch 'x', .ch 'V', .ch 'v', .ch 'I', .ch 'i']⟩)) ⬝ (.look true (Re.word))])) ⬝ (.set ⟨false, false, [.range 'A' 'Z', .range 'a' 'z']⟩), (Re.opt ((.set ⟨false, false, [.range 'A' 'Z', .range 'a' 'z']⟩) ⬝ (Re.opt (Re.space)))) ⬝ (.group G.vol_num_alt2 (Re.plus (Re.digit))) ⬝ (.star true (Re.space)) ⬝ (Re.ch '-') ⬝ (.star true (Re.space)) ⬝ (Re.opt ((.set ⟨false, false, [.range 'A' 'Z', .range 'a' 'z']⟩) ⬝ (Re.opt (Re.space)))) ⬝ (Re.plus (Re.digit))])) ⬝ (Re.opt ((.star true (Re.space)) ⬝ (Re.ch '(') ⬝ (Re.rep 1 2 (Re.digit)) ⬝ (Re.opt ((Re.ch '-') ⬝ Re.digit)) ⬝ (Re.ch ')'))) ⬝ (.star true (Re.space)) ⬝ (.set ⟨false, false, [.ch ',', .space, .ch ':', .ch '-']⟩) ⬝ (.star true (Re.space)) ⬝ (.group G.series (.set ⟨false, false, [.range 'A' 'H']⟩)) ⬝ (Re.opt ((.star true (Re.space)) ⬝ (.set ⟨false, false, [.ch ',', .space, .ch ':', .ch '-']⟩) ⬝ (.star true (Re.space)) ⬝ (.set ⟨false, false, [.ch '(', .ch '[']⟩) ⬝ (.star true (Re.space)) ⬝ (Re.alts [(.set ⟨false, false, [.ch 'F', .ch 'f']⟩) ⬝ (.set ⟨false, false, [.ch 'S', .ch 's']⟩), (.set ⟨false, false, [.ch 'P', .ch 'p']⟩) ⬝ (.set ⟨false, false, [.ch 'M', .ch 'm']⟩)]) ⬝ (.star true (Re.space)) ⬝ (Re.rep 0 4 (Re.digit)) ⬝ (.star true (Re.space)) ⬝ (.set ⟨false, false, [.ch ')', .ch ']']⟩))) ⬝ (.star true (Re.space)) ⬝ (.set ⟨false, false, [.ch ',', .space, .ch ':', .ch '-']⟩) ⬝ (.star true (Re.space)) ⬝ (Re.alts [.group G.jinst_page ((.set ⟨false, false, [.ch 'p', .ch 'P']⟩) ⬝ (Re.times 5 (Re.digit)) ⬝ (.star true (Re.digit))), (Re.opt (.set ⟨false, false, [.ch 'p', .ch 'P']⟩)) ⬝ (Re.opt (Re.ch 'p')) ⬝ (Re.opt (Re.ch '.')) ⬝ (Re.opt (Re.space)) ⬝ (.group G.page ((Re.opt (.set ⟨false, false, [.ch 'R', .ch 'L']⟩)) ⬝ (Re.opt (Re.word)) ⬝ (Re.plus (Re.digit)) ⬝ (Re.opt (.set ⟨false, false, [.ch 'c', .ch 'C']⟩)))) ⬝ Re.opt ((.star true (Re.space)) ⬝ (Re.ch '-') ⬝ (.star true (Re.space)) ⬝ .group G.page_end ((Re.opt (.set ⟨false, false, [.ch 'R', .ch 'L']⟩)) ⬝ (Re.opt (Re.word)) ⬝ (Re.plus (Re.digit)) ⬝ (Re.opt (.set ⟨false, false, [.ch 'c', .ch 'C']⟩))))]) ⬝ (.star true (Re.space)) ⬝ (.set ⟨false, false, [.ch ',', .space, .ch ':', .ch '-']⟩) ⬝ (.star true (Re.space)) ⬝ (Re.opt (Re.ch '(')) ⬝ (Re.opt ((Re.alts [(.set ⟨false, false, [.ch 'J', .ch 'j']⟩) ⬝ (.str (py! "an")), (.set ⟨false, false, [.ch 'F', .ch 'f']⟩) ⬝ (.str (py! "eb")), (.set ⟨false, false, [.ch 'M', .ch 'm']⟩) ⬝ (.str (py! "ar")), (.set ⟨false, false, [.ch 'A', .ch 'a']⟩) ⬝ (.str (py! "pr")), (.set ⟨false, false, [.ch 'M', .ch 'm']⟩) ⬝ (.str (py! "ay")), (.set ⟨false, false, [.ch 'J', .ch 'j']⟩) ⬝ (.str (py! "un")), (.set ⟨false, false, [.ch 'J', .ch 'j']⟩) ⬝ (.str (py! "ul")), (.set ⟨false, false, [.ch 'A', .ch 'a']⟩) ⬝ (.str (py! "ug")), (.set ⟨false, false, [.ch 'S', .ch 's']⟩) ⬝ (.str (py! "ep")), (.set ⟨false, false, [.ch 'O', .ch 'o']⟩) ⬝ (.str (py! "ct")), (.set ⟨false, false, [.ch 'N', .ch 'n']⟩) ⬝ (.str (py! "ov")), (.set ⟨false, false, [.ch 'D', .ch 'd']⟩) ⬝ (.str (py! "ec"))]) ⬝ (Re.opt (Re.ch '.')) ⬝ (.set ⟨false, false, [.ch ',', .space]⟩) ⬝ (.star true (Re.space)))) ⬝ (Re.opt ((Re.alts [(.set ⟨false, false, [.ch 'J', .ch 'j']⟩) ⬝ (.str (py! "anuary")), (.set ⟨false, false, [.ch 'F', .ch 'f']⟩) ⬝ (.str (py! "ebruary")), (.set ⟨false, false, [.ch 'M', .ch 'm']⟩) ⬝ (.str (py! "arch")), (.set ⟨false, false, [.ch 'A', .ch 'a']⟩) ⬝ (.str (py! "pril")), (.set ⟨false, false, [.ch 'M', .ch 'm']⟩) ⬝ (.str (py! "ay")), (.set ⟨false, false, [.ch 'J', .ch 'j']⟩) ⬝ (.str (py! "une")), (.set ⟨false, false, [.ch 'J', .ch 'j']⟩) ⬝ (.str (py! "uly")), (.set ⟨false, false, [.ch 'A', .ch 'a']⟩) ⬝ (.str (py! "ugust")), (.set ⟨false, false, [.ch 'S', .ch 's']⟩) ⬝ (.str (py! "eptember")), (.set ⟨false, false, [.ch 'O', .ch 'o']⟩) ⬝ (.str (py! "ctober")), (.set ⟨false, false, [.ch 'N', .ch 'n']⟩) ⬝ (.str (py! "ovember")), (.set ⟨false, false, [.ch 'D', .ch 'd']⟩) ⬝ (.str (py! "ecember"))]) ⬝ (Re.opt (Re.ch '.')) ⬝ (.set ⟨false, false, [.ch ',', .space]⟩) ⬝ (.star true (Re.space)))) ⬝ (.behind true [⟨false, false, [.digit]⟩]) ⬝ (.group G.year ((Re.opt (.set ⟨false, false, [.range 'A' 'Z', .range 'a' 'z']⟩)) ⬝ (Re.alts [.str (py! "19"), .str (py! "20")]) ⬝ (Re.times 2 (Re.digit)))) ⬝ (Re.opt (.set ⟨false, false, [.range 'A' 'Z', .range 'a' 'z']⟩)) ⬝ (.look true (Re.digit)) ⬝ (Re.opt (Re.ch ')'))

/-- `refextract/references/regexs.py:800-811 re_numeration_vol_nucphys_series_page_yr` flags X
```
\s*[,\s:-]?\s*\b(?:(?:[Vv]o?l?\.?|[Nn][oO°]\.?))?\s*(?<![\/\d])(?P<vol>(?:(?:[A-Za-z]\s*[,\s:-]?\s*)?(?P<vol_num>\d+|(?:(?<!\w)[XxVvIi]+(?!\w))))|(?:(?P<vol_num_alt>\d+|(?:(?<!\w)[XxVvIi]+(?!\w)))(?:[A-Za-z]))|(?:(?:[A-Za-z]\s?)?(?P<vol_num_alt2>\d+)\s*\-\s*(?:[A-Za-z]\s?)?\d+))(?:\s*\(\d{1,2}(?:-\d)?\))?(?:\s*[,\s:-]\s*(?:[\(\[]\s*(?:[Ff][Ss]|[Pp][Mm])\s*\d{0,4}\s*[\)\]]))?\s*[,\s:-]\s*(?P<series>[A-H])\s*[,\s:-]\s*((?P<jinst_page>[pP]\d{5}\d*)|[pP]?[p]?\.?\s?(?P<page>[RL]?\w?\d+[cC]?)(?:\s*-\s*(?P<page_end>[RL]?\w?\d+[cC]?))?)\s*[,\s:-]\s*
    \(?
    (?:(?:(?:
[Jj]an|[Ff]eb|[Mm]ar|[Aa]pr|[Mm]ay|[Jj]un|
[Jj]ul|[Aa]ug|[Ss]ep|[Oo]ct|[Nn]ov|[Dd]ec
)\.?)[,\s]\s*)?  # Jul, 1980
    (?:(?:(?:
[Jj]anuary|[Ff]ebruary|[Mm]arch|[Aa]pril|[Mm]ay|[Jj]une|
[Jj]uly|[Aa]ugust|[Ss]eptember|[Oo]ctober|[Nn]ovember|[Dd]ecember
)\.?)[,\s]\s*)?        # July, 1980
    (?<!\d)
    (?P<year>[A-Za-z]?(?:19|20)\d{2})(?:[A-Za-z]?)
    (?!\d)
    \)?

```
-/
def re_numeration_vol_nucphys_series_page_yr : Re :=
  (.star true (Re.space)) ⬝ (Re.opt (.set ⟨false, false, [.ch ',', .space, .ch ':', .ch '-']⟩)) ⬝ (.star true (Re.space)) ⬝ .wordb ⬝ (Re.opt (Re.alts [(.set ⟨false, false, [.ch 'V', .ch 'v']⟩) ⬝ (Re.opt (Re.ch 'o')) ⬝ (Re.opt (Re.ch 'l')) ⬝ (Re.opt (Re.ch '.')), (.set ⟨false, false, [.ch 'N', .ch 'n']⟩) ⬝ (.set ⟨false, false, [.ch 'o', .ch 'O', .ch '\u00b0']⟩) ⬝ (Re.opt (Re.ch '.'))])) ⬝ (.star true (Re.space)) ⬝ (.behind true [⟨false, false, [.ch '/', .digit]⟩]) ⬝ (.group G.vol (Re.alts [(Re.opt ((.set ⟨false, false, [.range 'A' 'Z', .range 'a' 'z']⟩) ⬝ (.star true (Re.space)) ⬝ (Re.opt (.set ⟨false, false, [.ch ',', .space, .ch ':', .ch '-']⟩)) ⬝ (.star true (Re.space)))) ⬝ .group G.vol_num (Re.alts [Re.plus (Re.digit), (.behind true [⟨false, false, [.word]⟩]) ⬝ (Re.plus (.set ⟨false, false, [.ch 'X', .ch 'x', .ch 'V', .ch 'v', .ch 'I', .ch 'i']⟩)) ⬝ (.look true (Re.word))]), (.group G.vol_num_alt (Re.alts [Re.plus (Re.digit), (.behind true [⟨false, false, [.word]⟩]) ⬝ (Re.plus (.set ⟨false, false, [.ch 'X', .ch 'x', .ch 'V', .ch 'v', .ch 'I', .ch 'i']⟩)) ⬝ (.look true (Re.word))])) ⬝ (.set ⟨false, false, [.range 'A' 'Z', .range 'a' 'z']⟩), (Re.opt ((.set ⟨false, false, [.range 'A' 'Z', .range 'a' 'z']⟩) ⬝ (Re.opt (Re.space)))) ⬝ (.group G.vol_num_alt2 (Re.plus (Re.digit))) ⬝ (.star true (Re.space)) ⬝ (Re.ch '-') ⬝ (.star true (Re.space)) ⬝ (Re.opt ((.set ⟨false, false, [.range 'A' 'Z', .range 'a' 'z']⟩) ⬝ (Re.opt (Re.space)))) ⬝ (Re.plus (Re.digit))])) ⬝ (Re.opt ((.star true (Re.space)) ⬝ (Re.ch '(') ⬝ (Re.rep 1 2 (Re.digit)) ⬝ (Re.opt ((Re.ch '-') ⬝ Re.digit)) ⬝ (Re.ch ')'))) ⬝ (Re.opt ((.star true (Re.space)) ⬝ (.set ⟨false, false, [.ch ',', .space, .ch ':', .ch '-']⟩) ⬝ (.star true (Re.space)) ⬝ (.set ⟨false, false, [.ch '(', .ch '[']⟩) ⬝ (.star true (Re.space)) ⬝ (Re.alts [(.set ⟨false, false, [.ch 'F', .ch 'f']⟩) ⬝ (.set ⟨false, false, [.ch 'S', .ch 's']⟩), (.set ⟨false, false, [.ch 'P', .ch 'p']⟩) ⬝ (.set ⟨false, false, [.ch 'M', .ch 'm']⟩)]) ⬝ (.star true (Re.space)) ⬝ (Re.rep 0 4 (Re.digit)) ⬝ (.star true (Re.space)) ⬝ (.set ⟨false, false, [.ch ')', .ch ']']⟩))) ⬝ (.star true (Re.space)) ⬝ (.set ⟨false, false, [.ch ',', .space, .ch ':', .ch '-']⟩) ⬝ (.star true (Re.space)) ⬝ (.group G.series (.set ⟨false, false, [.range 'A' 'H']⟩)) ⬝ (.star true (Re.space)) ⬝ (.set ⟨false, false, [.ch ',', .space, .ch ':', .ch '-']⟩) ⬝ (.star true (Re.space)) ⬝ (Re.alts [.group G.jinst_page ((.set ⟨false, false, [.ch 'p', .ch 'P']⟩) ⬝ (Re.times 5 (Re.digit)) ⬝ (.star true (Re.digit))), (Re.opt (.set ⟨false, false, [.ch 'p', .ch 'P']⟩)) ⬝ (Re.opt (Re.ch 'p')) ⬝ (Re.opt (Re.ch '.')) ⬝ (Re.opt (Re.space)) ⬝ (.group G.page ((Re.opt (.set ⟨false, false, [.ch 'R', .ch 'L']⟩)) ⬝ (Re.opt (Re.word)) ⬝ (Re.plus (Re.digit)) ⬝ (Re.opt (.set ⟨false, false, [.ch 'c', .ch 'C']⟩)))) ⬝ Re.opt ((.star true (Re.space)) ⬝ (Re.ch '-') ⬝ (.star true (Re.space)) ⬝ .group G.page_end ((Re.opt (.set ⟨false, false, [.ch 'R', .ch 'L']⟩)) ⬝ (Re.opt (Re.word)) ⬝ (Re.plus (Re.digit)) ⬝ (Re.opt (.set ⟨false, false, [.ch 'c', .ch 'C']⟩))))]) ⬝ (.star true (Re.space)) ⬝ (.set ⟨false, false, [.ch ',', .space, .ch ':', .ch '-']⟩) ⬝ (.star true (Re.space)) ⬝ (Re.opt (Re.ch '(')) ⬝ (Re.opt ((Re.alts [(.set ⟨false, false, [.ch 'J', .ch 'j']⟩) ⬝ (.str (py! "an")), (.set ⟨false, false, [.ch 'F', .ch 'f']⟩) ⬝ (.str (py! "eb")), (.set ⟨false, false, [.ch 'M', .ch 'm']⟩) ⬝ (.str (py! "ar")), (.set ⟨false, false, [.ch 'A', .ch 'a']⟩) ⬝ (.str (py! "pr")), (.set ⟨false, false, [.ch 'M', .ch 'm']⟩) ⬝ (.str (py! "ay")), (.set ⟨false, false, [.ch 'J', .ch 'j']⟩) ⬝ (.str (py! "un")), (.set ⟨false, false, [.ch 'J', .ch 'j']⟩) ⬝ (.str (py! "ul")), (.set ⟨false, false, [.ch 'A', .ch 'a']⟩) ⬝ (.str (py! "ug")), (.set ⟨false, false, [.ch 'S', .ch 's']⟩) ⬝ (.str (py! "ep")), (.set ⟨false, false, [.ch 'O', .ch 'o']⟩) ⬝ (.str (py! "ct")), (.set ⟨false, false, [.ch 'N', .ch 'n']⟩) ⬝ (.str (py! "ov")), (.set ⟨false, false, [.ch 'D', .ch 'd']⟩) ⬝ (.str (py! "ec"))]) ⬝ (Re.opt (Re.ch '.')) ⬝ (.set ⟨false, false, [.ch ',', .space]⟩) ⬝ (.star true (Re.space)))) ⬝ (Re.opt ((Re.alts [(.set ⟨false, false, [.ch 'J', .ch 'j']⟩) ⬝ (.str (py! "anuary")), (.set ⟨false, false, [.ch 'F', .ch 'f']⟩) ⬝ (.str (py! "ebruary")), (.set ⟨false, false, [.ch 'M', .ch 'm']⟩) ⬝ (.str (py! "arch")), (.set ⟨false, false, [.ch 'A', .ch 'a']⟩) ⬝ (.str (py! "pril")), (.set ⟨false, false, [.ch 'M', .ch 'm']⟩) ⬝ (.str (py! "ay")), (.set ⟨false, false, [.ch 'J', .ch 'j']⟩) ⬝ (.str (py! "une")), (.set ⟨false, false, [.ch 'J', .ch 'j']⟩) ⬝ (.str (py! "uly")), (.set ⟨false, false, [.ch 'A', .ch 'a']⟩) ⬝ (.str (py! "ugust")), (.set ⟨false, false, [.ch 'S', .ch 's']⟩) ⬝ (.str (py! "eptember")), (.set ⟨false, false, [.ch 'O', .ch 'o']⟩) ⬝ (.str (py! "ctober")), (.set ⟨false, false, [.ch 'N', .ch 'n']⟩) ⬝ (.str (py! "ovember")), (.set ⟨false, false, [.ch 'D', .ch 'd']⟩) ⬝ (.str (py! "ecember"))]) ⬝ (Re.opt (Re.ch '.')) ⬝ (.set ⟨false, false, [.ch ',', .space]⟩) ⬝ (.star true (Re.space)))) ⬝ (.behind true [⟨false, false, [.digit]⟩]) ⬝ (.group G.year ((Re.opt (.set ⟨false, false, [.range 'A' 'Z', .range 'a' 'z']⟩)) ⬝ (Re.alts [.str (py! "19"), .str (py! "20")]) ⬝ (Re.times 2 (Re.digit)))) ⬝ (Re.opt (.set ⟨false, false, [.range 'A' 'Z', .range 'a' 'z']⟩)) ⬝ (.look true (Re.digit)) ⬝ (Re.opt (Re.ch ')'))

/-- `refextract/references/regexs.py:814-817 re_numeration_yr_vol_page` flags X
```
\s*[,\s:-]?\s*
    \(?
    (?:(?:(?:
[Jj]an|[Ff]eb|[Mm]ar|[Aa]pr|[Mm]ay|[Jj]un|
[Jj]ul|[Aa]ug|[Ss]ep|[Oo]ct|[Nn]ov|[Dd]ec
)\.?)[,\s]\s*)?  # Jul, 1980
    (?:(?:(?:
[Jj]anuary|[Ff]ebruary|[Mm]arch|[Aa]pril|[Mm]ay|[Jj]une|
[Jj]uly|[Aa]ugust|[Ss]eptember|[Oo]ctober|[Nn]ovember|[Dd]ecember
)\.?)[,\s]\s*)?        # July, 1980
    (?<!\d)
    (?P<year>[A-Za-z]?(?:19|20)\d{2})(?:[A-Za-z]?)
    (?!\d)
    \)?
(?:\s*[,\s:-]\s*|(?<=\)))\b(?:(?:[Vv]o?l?\.?|[Nn][oO°]\.?))?\s*(?<![\/\d])(?P<vol>(?:(?:[A-Za-z]\s*[,\s:-]?\s*)?(?P<vol_num>\d+|(?:(?<!\w)[XxVvIi]+(?!\w))))|(?:(?P<vol_num_alt>\d+|(?:(?<!\w)[XxVvIi]+(?!\w)))(?:[A-Za-z]))|(?:(?:[A-Za-z]\s?)?(?P<vol_num_alt2>\d+)\s*\-\s*(?:[A-Za-z]\s?)?\d+))(?:\s*\(\d{1,2}(?:-\d)?\))?\s*[,\s:-]\s*((?P<jinst_page>[pP]\d{5}\d*)|[pP]?[p]?\.?\s?(?P<page>[RL]?\w?\d+[cC]?)(?:\s*-\s*(?P<page_end>[RL]?\w?\d+[cC]?))?)
```
-/
def re_numeration_yr_vol_page : Re :=
  (.star true (Re.space)) ⬝ (Re.opt (.set ⟨false, false, [.ch ',', .space, .ch ':', .ch '-']⟩)) ⬝ (.star true (Re.space)) ⬝ (Re.opt (Re.ch '(')) ⬝ (Re.opt ((Re.alts [(.set ⟨false, false, [.ch 'J', .ch 'j']⟩) ⬝ (.str (py! "an")), (.set ⟨false, false, [.ch 'F', .ch 'f']⟩) ⬝ (.str (py! "eb")), (.set ⟨false, false, [.ch 'M', .ch 'm']⟩) ⬝ (.str (py! "ar")), (.set ⟨false, false, [.ch 'A', .ch 'a']⟩) ⬝ (.str (py! "pr")), (.set ⟨false, false, [.ch 'M', .ch 'm']⟩) ⬝ (.str (py! "ay")), (.set ⟨false, false, [.ch 'J', .ch 'j']⟩) ⬝ (.str (py! "un")), (.set ⟨false, false, [.ch 'J', .ch 'j']⟩) ⬝ (.str (py! "ul")), (.set ⟨false, false, [.ch 'A', .ch 'a']⟩) ⬝ (.str (py! "ug")), (.set ⟨false, false, [.ch 'S', .ch 's']⟩) ⬝ (.str (py! "ep")), (.set ⟨false, false, [.ch 'O', .ch 'o']⟩) ⬝ (.str (py! "ct")), (.set ⟨false, false, [.ch 'N', .ch 'n']⟩) ⬝ (.str (py! "ov")), (.set ⟨false, false, [.ch 'D', .ch 'd']⟩) ⬝ (.str (py! "ec"))]) ⬝ (Re.opt (Re.ch '.')) ⬝ (.set ⟨false, false, [.ch ',', .space]⟩) ⬝ (.star true (Re.space)))) ⬝ (Re.opt ((Re.alts [(.set ⟨false, false, [.ch 'J', .ch 'j']⟩) ⬝ (.str (py! "anuary")), (.set ⟨false, false, [.ch 'F', .ch 'f']⟩) ⬝ (.str (py! "ebruary")), (.set ⟨false, false, [.ch 'M', .ch 'm']⟩) ⬝ (.str (py! "arch")), (.set ⟨false, false, [.ch 'A', .ch 'a']⟩) ⬝ (.str (py! "pril")), (.set ⟨false, false, [.ch 'M', .ch 'm']⟩) ⬝ (.str (py! "ay")), (.set ⟨false, false, [.ch 'J', .ch 'j']⟩) ⬝ (.str (py! "une")), (.set ⟨false, false, [.ch 'J', .ch 'j']⟩) ⬝ (.str (py! "uly")), (.set ⟨false, false, [.ch 'A', .ch 'a']⟩) ⬝ (.str (py! "ugust")), (.set ⟨false, false, [.ch 'S', .ch 's']⟩) ⬝ (.str (py! "eptember")), (.set ⟨false, false, [.ch 'O', .ch 'o']⟩) ⬝ (.str (py! "ctober")), (.set ⟨false, false, [.ch 'N', .ch 'n']⟩) ⬝ (.str (py! "ovember")), (.set ⟨false, false, [.ch 'D', .ch 'd']⟩) ⬝ (.str (py! "ecember"))]) ⬝ (Re.opt (Re.ch '.')) ⬝ (.set ⟨false, false, [.ch ',', .space]⟩) ⬝ (.star true (Re.space)))) ⬝ (.behind true [⟨false, false, [.digit]⟩]) ⬝ (.group G.year ((Re.opt (.set ⟨false, false, [.range 'A' 'Z', .range 'a' 'z']⟩)) ⬝ (Re.alts [.str (py! "19"), .str (py! "20")]) ⬝ (Re.times 2 (Re.digit)))) ⬝ (Re.opt (.set ⟨false, false, [.range 'A' 'Z', .range 'a' 'z']⟩)) ⬝ (.look true (Re.digit)) ⬝ (Re.opt (Re.ch ')')) ⬝ (Re.alts [(.star true (Re.space)) ⬝ (.set ⟨false, false, [.ch ',', .space, .ch ':', .ch '-']⟩) ⬝ (.star true (Re.space)), .behind false [⟨false, false, [.ch ')']⟩]]) ⬝ .wordb ⬝ (Re.opt (Re.alts [(.set ⟨false, false, [.ch 'V', .ch 'v']⟩) ⬝ (Re.opt (Re.ch 'o')) ⬝ (Re.opt (Re.ch 'l')) ⬝ (Re.opt (Re.ch '.')), (.set ⟨false, false, [.ch 'N', .ch 'n']⟩) ⬝ (.set ⟨false, false, [.ch 'o', .ch 'O', .ch '\u00b0']⟩) ⬝ (Re.opt (Re.ch '.'))])) ⬝ (.star true (Re.space)) ⬝ (.behind true [⟨false, false, [.ch '/', .digit]⟩]) ⬝ (.group G.vol (Re.alts [(Re.opt ((.set ⟨false, false, [.range 'A' 'Z', .range 'a' 'z']⟩) ⬝ (.star true (Re.space)) ⬝ (Re.opt (.set ⟨false, false, [.ch ',', .space, .ch ':', .ch '-']⟩)) ⬝ (.star true (Re.space)))) ⬝ .group G.vol_num (Re.alts [Re.plus (Re.digit), (.behind true [⟨false, false, [.word]⟩]) ⬝ (Re.plus (.set ⟨false, false, [.ch 'X', .ch 'x', .ch 'V', .ch 'v', .ch 'I', .ch 'i']⟩)) ⬝ (.look true (Re.word))]), (.group G.vol_num_alt (Re.alts [Re.plus (Re.digit), (.behind true [⟨false, false, [.word]⟩]) ⬝ (Re.plus (.set ⟨false, false, [.ch 'X', .ch 'x', .ch 'V', .ch 'v', .ch 'I', .ch 'i']⟩)) ⬝ (.look true (Re.word))])) ⬝ (.set ⟨false, false, [.range 'A' 'Z', .range 'a' 'z']⟩), (Re.opt ((.set ⟨false, false, [.range 'A' 'Z', .range 'a' 'z']⟩) ⬝ (Re.opt (Re.space)))) ⬝ (.group G.vol_num_alt2 (Re.plus (Re.digit))) ⬝ (.star true (Re.space)) ⬝ (Re.ch '-') ⬝ (.star true (Re.space)) ⬝ (Re.opt ((.set ⟨false, false, [.range 'A' 'Z', .range 'a' 'z']⟩) ⬝ (Re.opt (Re.space)))) ⬝ (Re.plus (Re.digit))])) ⬝ (Re.opt ((.star true (Re.space)) ⬝ (Re.ch '(') ⬝ (Re.rep 1 2 (Re.digit)) ⬝ (Re.opt ((Re.ch '-') ⬝ Re.digit)) ⬝ (Re.ch ')'))) ⬝ (.star true (Re.space)) ⬝ (.set ⟨false, false, [.ch ',', .space, .ch ':', .ch '-']⟩) ⬝ (.star true (Re.space)) ⬝ Re.alts [.group G.jinst_page ((.set ⟨false, false, [.ch 'p', .ch 'P']⟩) ⬝ (Re.times 5 (Re.digit)) ⬝ (.star true (Re.digit))), (Re.opt (.set ⟨false, false, [.ch 'p', .ch 'P']⟩)) ⬝ (Re.opt (Re.ch 'p')) ⬝ (Re.opt (Re.ch '.')) ⬝ (Re.opt (Re.space)) ⬝ (.group G.page ((Re.opt (.set ⟨false, false, [.ch 'R', .ch 'L']⟩)) ⬝ (Re.opt (Re.word)) ⬝ (Re.plus (Re.digit)) ⬝ (Re.opt (.set ⟨false, false, [.ch 'c', .ch 'C']⟩)))) ⬝ Re.opt ((.star true (Re.space)) ⬝ (Re.ch '-') ⬝ (.star true (Re.space)) ⬝ .group G.page_end ((Re.opt (.set ⟨false, false, [.ch 'R', .ch 'L']⟩)) ⬝ (Re.opt (Re.word)) ⬝ (Re.plus (Re.digit)) ⬝ (Re.opt (.set ⟨false, false, [.ch 'c', .ch 'C']⟩))))]

/-- `refextract/references/regexs.py:822-834 re_doi` flags XI
```

    ((\(?[Dd][Oo][Ii](\s)*\)?:?(\s)*)  # 'doi:' or 'doi' or '(doi)'(upper or lower case)
    |(https?://(dx\.)?doi\.org\/))?    # or 'http://(dx.)doi.org/'
    (?P<doi>10\.                       # 10.                       (mandatory for DOI's)
    \d{3,7}                            # [0-9] x 3-7
    (\.\w+)*                           # subdivisions separated by . (optional)
    (/|%2f)                            # / (possibly urlencoded)
    [\w\-_:;\(\)/\.<>]+                # any character
    [\w\-_:;\(\)/<>])                  # any character excluding a full stop
    
```
-/
def re_doi : Re :=
  (Re.opt (Re.alts [(Re.opt (Re.ch '(')) ⬝ (.set ⟨false, true, [.ch 'D', .ch 'd']⟩) ⬝ (.set ⟨false, true, [.ch 'O', .ch 'o']⟩) ⬝ (.set ⟨false, true, [.ch 'I', .ch 'i']⟩) ⬝ (.star true (Re.space)) ⬝ (Re.opt (Re.ch ')')) ⬝ (Re.opt (Re.ch ':')) ⬝ (.star true (Re.space)), (Re.strI (py! "http")) ⬝ (Re.opt (Re.chI 's')) ⬝ (Re.strI (py! "://")) ⬝ (Re.opt (Re.strI (py! "dx."))) ⬝ (Re.strI (py! "doi.org/"))])) ⬝ .group G.doi ((Re.strI (py! "10.")) ⬝ (Re.rep 3 7 (Re.digit)) ⬝ (.star true ((Re.ch '.') ⬝ (Re.plus (Re.word)))) ⬝ (Re.alts [Re.ch '/', Re.strI (py! "%2f")]) ⬝ (Re.plus (.set ⟨false, false, [.word, .ch '-', .ch '_', .ch ':', .ch ';', .ch '(', .ch ')', .ch '/', .ch '.', .ch '<', .ch '>']⟩)) ⬝ (.set ⟨false, false, [.word, .ch '-', .ch '_', .ch ':', .ch ';', .ch '(', .ch ')', .ch '/', .ch '<', .ch '>']⟩))

/-- `refextract/references/regexs.py:837-842 re_hdl` flags X
```
([hH][dD][lL]:
                          |https?://hdl\.handle\.net/)
                         (?P<hdl_id>\S+/\S+)
```
-/
def re_hdl : Re :=
  (Re.alts [(.set ⟨false, false, [.ch 'h', .ch 'H']⟩) ⬝ (.set ⟨false, false, [.ch 'd', .ch 'D']⟩) ⬝ (.set ⟨false, false, [.ch 'l', .ch 'L']⟩) ⬝ (Re.ch ':'), (.str (py! "http")) ⬝ (Re.opt (Re.ch 's')) ⬝ (.str (py! "://hdl.handle.net/"))]) ⬝ .group G.hdl_id ((Re.plus (.set ⟨false, false, [.nspace]⟩)) ⬝ (Re.ch '/') ⬝ (Re.plus (.set ⟨false, false, [.nspace]⟩)))

/-- `refextract/references/regexs.py:967-969 re_reference_line_bracket_markers` flags I
```
(?P<mark>(?P<left>\[)\s*(?P<marknum>\d+)\s*(?P<right>\]))
```
-/
def re_reference_line_bracket_markers : Re :=
  .group G.mark ((.group G.left (Re.ch '[')) ⬝ (.star true (Re.space)) ⬝ (.group G.marknum (Re.plus (Re.digit))) ⬝ (.star true (Re.space)) ⬝ (.group G.right (Re.ch ']')))

/-- `refextract/references/regexs.py:970-972 re_reference_line_curly_bracket_markers` flags I
```
(?P<mark>(?P<left>\{)\s*(?P<marknum>\d+)\s*(?P<right>\}))
```
-/
def re_reference_line_curly_bracket_markers : Re :=
  .group G.mark ((.group G.left (Re.ch '{')) ⬝ (.star true (Re.space)) ⬝ (.group G.marknum (Re.plus (Re.digit))) ⬝ (.star true (Re.space)) ⬝ (.group G.right (Re.ch '}')))

/-- `refextract/references/regexs.py:973-975 re_reference_line_dot_markers` flags I
```
(?P<mark>(?P<left>)\s*(?P<marknum>\d+)\s*(?P<right>\.))
```
-/
def re_reference_line_dot_markers : Re :=
  .group G.mark ((.group G.left (.eps)) ⬝ (.star true (Re.space)) ⬝ (.group G.marknum (Re.plus (Re.digit))) ⬝ (.star true (Re.space)) ⬝ (.group G.right (Re.ch '.')))

/-- `refextract/references/regexs.py:976-978 re_reference_line_number_markers` flags I
```
(?P<mark>(?P<left>)\s*(?P<marknum>\d+)\s*(?P<right>))
```
-/
def re_reference_line_number_markers : Re :=
  .group G.mark ((.group G.left (.eps)) ⬝ (.star true (Re.space)) ⬝ (.group G.marknum (Re.plus (Re.digit))) ⬝ (.star true (Re.space)) ⬝ (.group G.right (.eps)))

/-- `refextract/references/regexs.py:1090-1095 re_arxiv_notation` flags X
```

    (arxiv)|(e[\-\s]?print:?\s*arxiv)
    
```
-/
def re_arxiv_notation : Re :=
  Re.alts [.str (py! "arxiv"), (Re.ch 'e') ⬝ (Re.opt (.set ⟨false, false, [.ch '-', .space]⟩)) ⬝ (.str (py! "print")) ⬝ (Re.opt (Re.ch ':')) ⬝ (.star true (Re.space)) ⬝ (.str (py! "arxiv"))]

/-- `refextract/references/regexs.py:1099-1099 re_num`
```
(\d+)
```
-/
def re_num : Re :=
  .group 1 (Re.plus (Re.digit))

/-- `refextract/references/regexs.py:1102-1102 re_year_in_misc_txt`
```
(?:^|(?<!\d))(?:19|20)\d{2}(?:(?!\d)|$)
```
-/
def re_year_in_misc_txt : Re :=
  (Re.alts [.bos, .behind true [⟨false, false, [.digit]⟩]]) ⬝ (Re.alts [.str (py! "19"), .str (py! "20")]) ⬝ (Re.times 2 (Re.digit)) ⬝ (Re.alts [.look true (Re.digit), .eos])

/-- `refextract/references/regexs.py:280-289 re_new_arxiv` flags XI
```
 # 9910.1234v9 [physics.ins-det]
    (?<!ARXIV:)(?<!\d)
    (?P<year>)
    (?P<month>(0[1-9]|1[0-2]))
    \.(?P<num>\d{4})(?:[\s-]*V(?P<version>\d))?(?!\d)
    \s*(?P<suffix>\[[A-Z.-]+\])? 
```
-/
def re_new_arxiv (years : Re) : Re :=
  (.behind true [⟨false, true, [.ch 'A']⟩, ⟨false, true, [.ch 'R']⟩, ⟨false, true, [.ch 'X']⟩, ⟨false, true, [.ch 'I']⟩, ⟨false, true, [.ch 'V']⟩, ⟨false, false, [.ch ':']⟩]) ⬝ (.behind true [⟨false, false, [.digit]⟩]) ⬝ (.group G.year (years)) ⬝ (.group G.month (Re.alts [(Re.ch '0') ⬝ (.set ⟨false, false, [.range '1' '9']⟩), (Re.ch '1') ⬝ (.set ⟨false, false, [.range '0' '2']⟩)])) ⬝ (Re.ch '.') ⬝ (.group G.num (Re.times 4 (Re.digit))) ⬝ (Re.opt ((.star true (.set ⟨false, false, [.space, .ch '-']⟩)) ⬝ (Re.chI 'V') ⬝ (.group G.version (Re.digit)))) ⬝ (.look true (Re.digit)) ⬝ (.star true (Re.space)) ⬝ Re.opt (.group G.suffix ((Re.ch '[') ⬝ (Re.plus (.set ⟨false, true, [.range 'A' 'Z', .ch '.', .ch '-']⟩)) ⬝ (Re.ch ']')))

/-- `refextract/references/regexs.py:291-300 re_new_arxiv_5digits` flags XI
```
 # 9910.1234v9 [physics.ins-det]
    (?<!ARXIV:)(?<!\d)
    (?P<year>)
    (?P<month>(0[1-9]|1[0-2]))
    \.(?P<num>\d{5})(?:[\s-]*V(?P<version>\d))?(?!\d)
    \s*(?P<suffix>\[[A-Z.-]+\])? 
```
-/
def re_new_arxiv_5digits (years : Re) : Re :=
  (.behind true [⟨false, true, [.ch 'A']⟩, ⟨false, true, [.ch 'R']⟩, ⟨false, true, [.ch 'X']⟩, ⟨false, true, [.ch 'I']⟩, ⟨false, true, [.ch 'V']⟩, ⟨false, false, [.ch ':']⟩]) ⬝ (.behind true [⟨false, false, [.digit]⟩]) ⬝ (.group G.year (years)) ⬝ (.group G.month (Re.alts [(Re.ch '0') ⬝ (.set ⟨false, false, [.range '1' '9']⟩), (Re.ch '1') ⬝ (.set ⟨false, false, [.range '0' '2']⟩)])) ⬝ (Re.ch '.') ⬝ (.group G.num (Re.times 5 (Re.digit))) ⬝ (Re.opt ((.star true (.set ⟨false, false, [.space, .ch '-']⟩)) ⬝ (Re.chI 'V') ⬝ (.group G.version (Re.digit)))) ⬝ (.look true (Re.digit)) ⬝ (.star true (Re.space)) ⬝ Re.opt (.group G.suffix ((Re.ch '[') ⬝ (Re.plus (.set ⟨false, true, [.range 'A' 'Z', .ch '.', .ch '-']⟩)) ⬝ (Re.ch ']')))

/-- `refextract/references/regexs.py:57-80 re_pos_patterns` flags XI
```
POS\s*[,\s:-]?\s*(?P<year>(\s(?:19|20)\d{2}\s|\((?:19|20)\d{2}\)))\s*[,\s:-]\s*(?P<volume_name>\w{1,10})\s*[,\s:-]?\s*(?P<volume_num>(?:19|20)\d{2})\s*[,\s:-]\s*(?P<page>\d{1,4})
```
-/
def re_pos_0 : Re :=
  (Re.strI (py! "POS")) ⬝ (.star true (Re.space)) ⬝ (Re.opt (.set ⟨false, false, [.ch ',', .space, .ch ':', .ch '-']⟩)) ⬝ (.star true (Re.space)) ⬝ (.group G.year (Re.alts [Re.space ⬝ (Re.alts [Re.strI (py! "19"), Re.strI (py! "20")]) ⬝ (Re.times 2 (Re.digit)) ⬝ Re.space, (Re.ch '(') ⬝ (Re.alts [Re.strI (py! "19"), Re.strI (py! "20")]) ⬝ (Re.times 2 (Re.digit)) ⬝ (Re.ch ')')])) ⬝ (.star true (Re.space)) ⬝ (.set ⟨false, false, [.ch ',', .space, .ch ':', .ch '-']⟩) ⬝ (.star true (Re.space)) ⬝ (.group G.volume_name (Re.rep 1 10 (Re.word))) ⬝ (.star true (Re.space)) ⬝ (Re.opt (.set ⟨false, false, [.ch ',', .space, .ch ':', .ch '-']⟩)) ⬝ (.star true (Re.space)) ⬝ (.group G.volume_num ((Re.alts [Re.strI (py! "19"), Re.strI (py! "20")]) ⬝ (Re.times 2 (Re.digit)))) ⬝ (.star true (Re.space)) ⬝ (.set ⟨false, false, [.ch ',', .space, .ch ':', .ch '-']⟩) ⬝ (.star true (Re.space)) ⬝ (.group G.page (Re.rep 1 4 (Re.digit)))

/-- `refextract/references/regexs.py:57-80 re_pos_patterns` flags XI
```
POS\s*[,\s:-]\s*(?P<volume_name>\w{1,10})\s*[,\s:-]?\s*(?P<volume_num>(?:19|20)\d{2})\s*[,\s:-]?\s*(?P<year>(\s(?:19|20)\d{2}\s|\((?:19|20)\d{2}\)))\s*[,\s:-]?\s*(?P<page>\d{1,4})
```
-/
def re_pos_1 : Re :=
  (Re.strI (py! "POS")) ⬝ (.star true (Re.space)) ⬝ (.set ⟨false, false, [.ch ',', .space, .ch ':', .ch '-']⟩) ⬝ (.star true (Re.space)) ⬝ (.group G.volume_name (Re.rep 1 10 (Re.word))) ⬝ (.star true (Re.space)) ⬝ (Re.opt (.set ⟨false, false, [.ch ',', .space, .ch ':', .ch '-']⟩)) ⬝ (.star true (Re.space)) ⬝ (.group G.volume_num ((Re.alts [Re.strI (py! "19"), Re.strI (py! "20")]) ⬝ (Re.times 2 (Re.digit)))) ⬝ (.star true (Re.space)) ⬝ (Re.opt (.set ⟨false, false, [.ch ',', .space, .ch ':', .ch '-']⟩)) ⬝ (.star true (Re.space)) ⬝ (.group G.year (Re.alts [Re.space ⬝ (Re.alts [Re.strI (py! "19"), Re.strI (py! "20")]) ⬝ (Re.times 2 (Re.digit)) ⬝ Re.space, (Re.ch '(') ⬝ (Re.alts [Re.strI (py! "19"), Re.strI (py! "20")]) ⬝ (Re.times 2 (Re.digit)) ⬝ (Re.ch ')')])) ⬝ (.star true (Re.space)) ⬝ (Re.opt (.set ⟨false, false, [.ch ',', .space, .ch ':', .ch '-']⟩)) ⬝ (.star true (Re.space)) ⬝ (.group G.page (Re.rep 1 4 (Re.digit)))

/-- `refextract/references/regexs.py:57-80 re_pos_patterns` flags XI
```
POS\s*[,\s:-]\s*(?P<volume_name>\w{1,10})\s*[,\s:-]?\s*(?P<volume_num>(?:19|20)\d{2})\s*[,\s:-]\s*(?P<page>\d{1,4})\s*[,\s:-]?\s*(?P<year>(\s(?:19|20)\d{2}\s|\((?:19|20)\d{2}\)))
```
-/
def re_pos_2 : Re :=
  (Re.strI (py! "POS")) ⬝ (.star true (Re.space)) ⬝ (.set ⟨false, false, [.ch ',', .space, .ch ':', .ch '-']⟩) ⬝ (.star true (Re.space)) ⬝ (.group G.volume_name (Re.rep 1 10 (Re.word))) ⬝ (.star true (Re.space)) ⬝ (Re.opt (.set ⟨false, false, [.ch ',', .space, .ch ':', .ch '-']⟩)) ⬝ (.star true (Re.space)) ⬝ (.group G.volume_num ((Re.alts [Re.strI (py! "19"), Re.strI (py! "20")]) ⬝ (Re.times 2 (Re.digit)))) ⬝ (.star true (Re.space)) ⬝ (.set ⟨false, false, [.ch ',', .space, .ch ':', .ch '-']⟩) ⬝ (.star true (Re.space)) ⬝ (.group G.page (Re.rep 1 4 (Re.digit))) ⬝ (.star true (Re.space)) ⬝ (Re.opt (.set ⟨false, false, [.ch ',', .space, .ch ':', .ch '-']⟩)) ⬝ (.star true (Re.space)) ⬝ .group G.year (Re.alts [Re.space ⬝ (Re.alts [Re.strI (py! "19"), Re.strI (py! "20")]) ⬝ (Re.times 2 (Re.digit)) ⬝ Re.space, (Re.ch '(') ⬝ (Re.alts [Re.strI (py! "19"), Re.strI (py! "20")]) ⬝ (Re.times 2 (Re.digit)) ⬝ (Re.ch ')')])

/-- `refextract/references/regexs.py:57-80 re_pos_patterns` flags XI
```
POS\s*[,\s:-]?\s*\((?P<volume_name>\w{1,10})\s*[,\s:-]?\s*(?P<volume_num>(?:19|20)\d{2})\)\s*[,\s:-]?\s*(?P<page>\d{1,4})
```
-/
def re_pos_3 : Re :=
  (Re.strI (py! "POS")) ⬝ (.star true (Re.space)) ⬝ (Re.opt (.set ⟨false, false, [.ch ',', .space, .ch ':', .ch '-']⟩)) ⬝ (.star true (Re.space)) ⬝ (Re.ch '(') ⬝ (.group G.volume_name (Re.rep 1 10 (Re.word))) ⬝ (.star true (Re.space)) ⬝ (Re.opt (.set ⟨false, false, [.ch ',', .space, .ch ':', .ch '-']⟩)) ⬝ (.star true (Re.space)) ⬝ (.group G.volume_num ((Re.alts [Re.strI (py! "19"), Re.strI (py! "20")]) ⬝ (Re.times 2 (Re.digit)))) ⬝ (Re.ch ')') ⬝ (.star true (Re.space)) ⬝ (Re.opt (.set ⟨false, false, [.ch ',', .space, .ch ':', .ch '-']⟩)) ⬝ (.star true (Re.space)) ⬝ (.group G.page (Re.rep 1 4 (Re.digit)))

/-- `refextract/references/regexs.py:83-87 re_pos` -/
def re_pos : List Re :=
  [re_pos_0,
   re_pos_1,
   re_pos_2,
   re_pos_3]

/-- `refextract/references/regexs.py:35-35 re_pos_year_num`
```
(?:19|20)\d{2}
```
-/
def re_pos_year_num : Re :=
  (Re.alts [.str (py! "19"), .str (py! "20")]) ⬝ (Re.times 2 (Re.digit))

/-- `refextract/references/regexs.py:241-250` lookbehinds of `compute_arxiv_re` -/
def old_arxiv_lead : Re :=
  (.behind true [⟨false, false, [.ch '<']⟩, ⟨false, true, [.ch 'c']⟩, ⟨false, true, [.ch 'd']⟩, ⟨false, true, [.ch 's']⟩, ⟨false, false, [.ch '.']⟩, ⟨false, true, [.ch 'R']⟩, ⟨false, true, [.ch 'E']⟩, ⟨false, true, [.ch 'P']⟩, ⟨false, true, [.ch 'O']⟩, ⟨false, true, [.ch 'R']⟩, ⟨false, true, [.ch 'T']⟩, ⟨false, true, [.ch 'N']⟩, ⟨false, true, [.ch 'U']⟩, ⟨false, true, [.ch 'M']⟩, ⟨false, true, [.ch 'B']⟩, ⟨false, true, [.ch 'E']⟩, ⟨false, true, [.ch 'R']⟩, ⟨false, false, [.ch '>']⟩]) ⬝ (.behind true [⟨false, false, [.word]⟩])

/-- `refextract/references/regexs.py:128-131 old_arxiv_numbers`
```
[\|/:\s-]?(?P<num>(?:9[1-9]|0[0-7])(?:0[1-9]|1[0-2])\d{3})(?:v\d{1,3})?(?=[^\w\d]|$)
```
-/
def old_arxiv_numbers : Re :=
  (Re.opt (.set ⟨false, false, [.ch '|', .ch '/', .ch ':', .space, .ch '-']⟩)) ⬝ (.group G.num ((Re.alts [(Re.ch '9') ⬝ (.set ⟨false, false, [.range '1' '9']⟩), (Re.ch '0') ⬝ (.set ⟨false, false, [.range '0' '7']⟩)]) ⬝ (Re.alts [(Re.ch '0') ⬝ (.set ⟨false, false, [.range '1' '9']⟩), (Re.ch '1') ⬝ (.set ⟨false, false, [.range '0' '2']⟩)]) ⬝ (Re.times 3 (Re.digit)))) ⬝ (Re.opt ((Re.chI 'v') ⬝ (Re.rep 1 3 (Re.digit)))) ⬝ (.look false (Re.alts [.set ⟨true, false, [.word, .digit]⟩, .eos]))

/-- `refextract/references/regexs.py:133-245 old_arxiv`: name pattern and replacement name (`none`: the matched name). -/
def old_arxiv : List (Re × Option Str) :=
  [(Re.strI (py! "acc-ph"), none),
   (Re.strI (py! "astro-ph"), none),
   (Re.strI (py! "astro-phy"), some (py! "astro-ph")),
   ((Re.strI (py! "astro-ph.")) ⬝ (Re.times 2 (.set ⟨false, true, [.range 'a' 'z']⟩)), none),
   (Re.strI (py! "atom-ph"), none),
   (Re.strI (py! "chao-dyn"), none),
   (Re.strI (py! "chem-ph"), none),
   (Re.strI (py! "cond-mat"), none),
   (Re.strI (py! "cs"), none),
   ((Re.strI (py! "cs.")) ⬝ (Re.times 2 (.set ⟨false, true, [.range 'a' 'z']⟩)), none),
   (Re.strI (py! "gr-qc"), none),
   (Re.strI (py! "hep-ex"), none),
   (Re.strI (py! "hep-lat"), none),
   (Re.strI (py! "hep-ph"), none),
   (Re.strI (py! "hepph"), some (py! "hep-ph")),
   (Re.strI (py! "hep-th"), none),
   (Re.strI (py! "hepth"), some (py! "hep-th")),
   (Re.strI (py! "math"), none),
   ((Re.strI (py! "math.")) ⬝ (Re.times 2 (.set ⟨false, true, [.range 'a' 'z']⟩)), none),
   (Re.strI (py! "math-ph"), none),
   (Re.strI (py! "nlin"), none),
   ((Re.strI (py! "nlin.")) ⬝ (Re.times 2 (.set ⟨false, true, [.range 'a' 'z']⟩)), none),
   (Re.strI (py! "nucl-ex"), none),
   (Re.strI (py! "nucl-th"), none),
   (Re.strI (py! "physics"), none),
   (Re.strI (py! "physics.acc-ph"), none),
   (Re.strI (py! "physics.ao-ph"), none),
   (Re.strI (py! "physics.atm-clus"), none),
   (Re.strI (py! "physics.atom-ph"), none),
   (Re.strI (py! "physics.bio-ph"), none),
   (Re.strI (py! "physics.chem-ph"), none),
   (Re.strI (py! "physics.class-ph"), none),
   (Re.strI (py! "physics.comp-ph"), none),
   (Re.strI (py! "physics.data-an"), none),
   (Re.strI (py! "physics.ed-ph"), none),
   (Re.strI (py! "physics.flu-dyn"), none),
   (Re.strI (py! "physics.gen-ph"), none),
   (Re.strI (py! "physics.geo-ph"), none),
   (Re.strI (py! "physics.hist-ph"), none),
   (Re.strI (py! "physics.ins-det"), none),
   (Re.strI (py! "physics.med-ph"), none),
   (Re.strI (py! "physics.optics"), none),
   (Re.strI (py! "physics.plasm-ph"), none),
   (Re.strI (py! "physics.pop-ph"), none),
   (Re.strI (py! "physics.soc-ph"), none),
   (Re.strI (py! "physics.space-ph"), none),
   (Re.strI (py! "plasm-ph"), some (py! "physics.plasm-ph")),
   ((Re.strI (py! "q-bio.")) ⬝ (Re.times 2 (.set ⟨false, true, [.range 'a' 'z']⟩)), none),
   ((Re.strI (py! "q-fin.")) ⬝ (Re.times 2 (.set ⟨false, true, [.range 'a' 'z']⟩)), none),
   (Re.strI (py! "q-alg"), none),
   (Re.strI (py! "quant-ph"), none),
   (Re.strI (py! "quant-phys"), some (py! "quant-ph")),
   (Re.strI (py! "solv-int"), none),
   ((Re.strI (py! "stat.")) ⬝ (Re.times 2 (.set ⟨false, true, [.range 'a' 'z']⟩)), none),
   (Re.strI (py! "stat-mech"), none),
   (Re.strI (py! "dg-ga"), none),
   (Re.strI (py! "hap-ph"), some (py! "hep-ph")),
   (Re.strI (py! "funct-an"), none),
   (Re.strI (py! "quantph"), some (py! "quant-ph")),
   (Re.strI (py! "stro-ph"), some (py! "astro-ph")),
   (Re.strI (py! "hepex"), some (py! "hep-ex")),
   (Re.strI (py! "math-ag"), some (py! "math.ag")),
   (Re.strI (py! "math-dg"), some (py! "math.dg")),
   (Re.strI (py! "nuc-th"), some (py! "nucl-th")),
   (Re.strI (py! "math-ca"), some (py! "math.ca")),
   (Re.strI (py! "nlin-si"), some (py! "nlin.si")),
   (Re.strI (py! "quantum-ph"), some (py! "quant-ph")),
   (Re.strI (py! "ep-ph"), some (py! "hep-ph")),
   (Re.strI (py! "ep-th"), some (py! "hep-ph")),
   (Re.strI (py! "ep-ex"), some (py! "hep-ex")),
   (Re.strI (py! "hept-h"), some (py! "hep-th")),
   (Re.strI (py! "hepp-h"), some (py! "hep-ph")),
   (Re.strI (py! "physi-cs"), some (py! "physics")),
   (Re.strI (py! "asstro-ph"), some (py! "astro-ph")),
   (Re.strI (py! "hep-lt"), some (py! "hep-lat")),
   (Re.strI (py! "he-ph"), some (py! "hep-ph")),
   (Re.strI (py! "het-ph"), some (py! "hep-ph")),
   (Re.strI (py! "mat-ph"), some (py! "math.th")),
   (Re.strI (py! "math-th"), some (py! "math.th")),
   (Re.strI (py! "ucl-th"), some (py! "nucl-th")),
   (Re.strI (py! "nnucl-th"), some (py! "nucl-th")),
   (Re.strI (py! "nuclt-th"), some (py! "nucl-th")),
   (Re.strI (py! "atro-ph"), some (py! "astro-ph")),
   (Re.strI (py! "qnant-ph"), some (py! "quant-ph")),
   (Re.strI (py! "astr-ph"), some (py! "astro-ph")),
   (Re.strI (py! "math-qa"), some (py! "math.qa")),
   (Re.strI (py! "tro-ph"), some (py! "astro-ph")),
   (Re.strI (py! "hucl-th"), some (py! "nucl-th")),
   (Re.strI (py! "math-gt"), some (py! "math.gt")),
   (Re.strI (py! "math-nt"), some (py! "math.nt")),
   (Re.strI (py! "math-ct"), some (py! "math.ct")),
   (Re.strI (py! "math-oa"), some (py! "math.oa")),
   (Re.strI (py! "math-sg"), some (py! "math.sg")),
   (Re.strI (py! "math-ap"), some (py! "math.ap")),
   (Re.strI (py! "quan-ph"), some (py! "quant-ph")),
   (Re.strI (py! "nlin-cd"), some (py! "nlin.cd")),
   (Re.strI (py! "math-sp"), some (py! "math.sp")),
   (Re.strI (py! "ast-ph"), some (py! "astro-ph")),
   (Re.strI (py! "asyro-ph"), some (py! "astro-ph")),
   (Re.strI (py! "aastro-ph"), some (py! "astro-ph")),
   (Re.strI (py! "astrop-ph"), some (py! "astro-ph")),
   (Re.strI (py! "arxivastrop-ph"), some (py! "astro-ph")),
   (Re.strI (py! "hept-th"), some (py! "hep-th")),
   (Re.strI (py! "quan-th"), some (py! "quant-th")),
   (Re.strI (py! "asro-ph"), some (py! "astro-ph")),
   (Re.strI (py! "castro-ph"), some (py! "astro-ph")),
   (Re.strI (py! "asaastro-ph"), some (py! "astro-ph")),
   (Re.strI (py! "hhep-ph"), some (py! "hep-ph")),
   (Re.strI (py! "hhep-ex"), some (py! "hep-ex")),
   (Re.strI (py! "alg-geom"), none),
   (Re.strI (py! "nuclth"), some (py! "nucl-th"))]

/-- `refextract/references/regexs.py:911-953 get_reference_line_numeration_marker_patterns` flags I
```
\s*(?P<mark>\[\s*(?P<marknum>\d+)\s*\])
```
-/
def marker_pattern_0 (pfx : Re) : Re :=
  (.star true (Re.space)) ⬝ pfx ⬝ .group G.mark ((Re.ch '[') ⬝ (.star true (Re.space)) ⬝ (.group G.marknum (Re.plus (Re.digit))) ⬝ (.star true (Re.space)) ⬝ (Re.ch ']'))

/-- `refextract/references/regexs.py:911-953 get_reference_line_numeration_marker_patterns` flags I
```
\s*(?P<mark>\[\s*[a-zA-Z:-]+\+?\s?(\d{1,4}[A-Za-z:-]?)?\s*\])
```
-/
def marker_pattern_1 (pfx : Re) : Re :=
  (.star true (Re.space)) ⬝ pfx ⬝ .group G.mark ((Re.ch '[') ⬝ (.star true (Re.space)) ⬝ (Re.plus (.set ⟨false, true, [.range 'a' 'z', .range 'A' 'Z', .ch ':', .ch '-']⟩)) ⬝ (Re.opt (Re.ch '+')) ⬝ (Re.opt (Re.space)) ⬝ (Re.opt ((Re.rep 1 4 (Re.digit)) ⬝ (Re.opt (.set ⟨false, true, [.range 'A' 'Z', .range 'a' 'z', .ch ':', .ch '-']⟩)))) ⬝ (.star true (Re.space)) ⬝ (Re.ch ']'))

/-- `refextract/references/regexs.py:911-953 get_reference_line_numeration_marker_patterns` flags I
```
\s*(?P<mark>\{\s*(?P<marknum>\d+)\s*\})
```
-/
def marker_pattern_2 (pfx : Re) : Re :=
  (.star true (Re.space)) ⬝ pfx ⬝ .group G.mark ((Re.ch '{') ⬝ (.star true (Re.space)) ⬝ (.group G.marknum (Re.plus (Re.digit))) ⬝ (.star true (Re.space)) ⬝ (Re.ch '}'))

/-- `refextract/references/regexs.py:911-953 get_reference_line_numeration_marker_patterns` flags I
```
\s*(?P<mark>\<\s*(?P<marknum>\d+)\s*\>)
```
-/
def marker_pattern_3 (pfx : Re) : Re :=
  (.star true (Re.space)) ⬝ pfx ⬝ .group G.mark ((Re.ch '<') ⬝ (.star true (Re.space)) ⬝ (.group G.marknum (Re.plus (Re.digit))) ⬝ (.star true (Re.space)) ⬝ (Re.ch '>'))

/-- `refextract/references/regexs.py:911-953 get_reference_line_numeration_marker_patterns` flags I
```
\s*(?P<mark>\(\s*(?P<marknum>\d+)\s*\))
```
-/
def marker_pattern_4 (pfx : Re) : Re :=
  (.star true (Re.space)) ⬝ pfx ⬝ .group G.mark ((Re.ch '(') ⬝ (.star true (Re.space)) ⬝ (.group G.marknum (Re.plus (Re.digit))) ⬝ (.star true (Re.space)) ⬝ (Re.ch ')'))

/-- `refextract/references/regexs.py:911-953 get_reference_line_numeration_marker_patterns` flags I
```
\s*(?P<mark>(?P<marknum>\d+)\s*\.(?!\d))
```
-/
def marker_pattern_5 (pfx : Re) : Re :=
  (.star true (Re.space)) ⬝ pfx ⬝ .group G.mark ((.group G.marknum (Re.plus (Re.digit))) ⬝ (.star true (Re.space)) ⬝ (Re.ch '.') ⬝ (.look true (Re.digit)))

/-- `refextract/references/regexs.py:911-953 get_reference_line_numeration_marker_patterns` flags I
```
\s*(?P<mark>(?P<marknum>\d+)\s+)
```
-/
def marker_pattern_6 (pfx : Re) : Re :=
  (.star true (Re.space)) ⬝ pfx ⬝ .group G.mark ((.group G.marknum (Re.plus (Re.digit))) ⬝ (Re.plus (Re.space)))

/-- `refextract/references/regexs.py:911-953 get_reference_line_numeration_marker_patterns` flags I
```
\s*(?P<mark>(?P<marknum>\d+)\s*\])
```
-/
def marker_pattern_7 (pfx : Re) : Re :=
  (.star true (Re.space)) ⬝ pfx ⬝ .group G.mark ((.group G.marknum (Re.plus (Re.digit))) ⬝ (.star true (Re.space)) ⬝ (Re.ch ']'))

/-- `refextract/references/regexs.py:911-953 get_reference_line_numeration_marker_patterns` flags I
```
\s*(?P<mark>(?P<marknum>\d+)\s*\})
```
-/
def marker_pattern_8 (pfx : Re) : Re :=
  (.star true (Re.space)) ⬝ pfx ⬝ .group G.mark ((.group G.marknum (Re.plus (Re.digit))) ⬝ (.star true (Re.space)) ⬝ (Re.ch '}'))

/-- `refextract/references/regexs.py:911-953 get_reference_line_numeration_marker_patterns` flags I
```
\s*(?P<mark>(?P<marknum>\d+)\s*\))
```
-/
def marker_pattern_9 (pfx : Re) : Re :=
  (.star true (Re.space)) ⬝ pfx ⬝ .group G.mark ((.group G.marknum (Re.plus (Re.digit))) ⬝ (.star true (Re.space)) ⬝ (Re.ch ')'))

/-- `refextract/references/regexs.py:911-953 get_reference_line_numeration_marker_patterns` flags I
```
\s*(?P<mark>(?P<marknum>\d+)\s*\>)
```
-/
def marker_pattern_10 (pfx : Re) : Re :=
  (.star true (Re.space)) ⬝ pfx ⬝ .group G.mark ((.group G.marknum (Re.plus (Re.digit))) ⬝ (.star true (Re.space)) ⬝ (Re.ch '>'))

/-- `refextract/references/regexs.py:911-953 get_reference_line_numeration_marker_patterns` flags I
```
\s*(?P<mark>\[\s*\d+\.\d+\s*\])
```
-/
def marker_pattern_11 (pfx : Re) : Re :=
  (.star true (Re.space)) ⬝ pfx ⬝ .group G.mark ((Re.ch '[') ⬝ (.star true (Re.space)) ⬝ (Re.plus (Re.digit)) ⬝ (Re.ch '.') ⬝ (Re.plus (Re.digit)) ⬝ (.star true (Re.space)) ⬝ (Re.ch ']'))

/-- `refextract/references/regexs.py:911-953 get_reference_line_numeration_marker_patterns` flags I
```
\s*(?P<mark>\[\s*\])
```
-/
def marker_pattern_12 (pfx : Re) : Re :=
  (.star true (Re.space)) ⬝ pfx ⬝ .group G.mark ((Re.ch '[') ⬝ (.star true (Re.space)) ⬝ (Re.ch ']'))

/-- `refextract/references/regexs.py:911-953 get_reference_line_numeration_marker_patterns` flags I
```
\s*(?P<mark>\*)
```
-/
def marker_pattern_13 (pfx : Re) : Re :=
  (.star true (Re.space)) ⬝ pfx ⬝ (.group G.mark (Re.ch '*'))

/-- `refextract/references/regexs.py:911-953 get_reference_line_numeration_marker_patterns` -/
def marker_patterns (pfx : Re) : List Re :=
  [marker_pattern_0 pfx,
   marker_pattern_1 pfx,
   marker_pattern_2 pfx,
   marker_pattern_3 pfx,
   marker_pattern_4 pfx,
   marker_pattern_5 pfx,
   marker_pattern_6 pfx,
   marker_pattern_7 pfx,
   marker_pattern_8 pfx,
   marker_pattern_9 pfx,
   marker_pattern_10 pfx,
   marker_pattern_11 pfx,
   marker_pattern_12 pfx,
   marker_pattern_13 pfx]

/-- `refextract/references/regexs.py:861-908 get_reference_section_title_patterns` flags I
```
^\s*([\[\-\{\(])?\s*((\w|\d){1,5}([\.\-\,](\w|\d){1,5})?\s*[\.\-\}\)\]]\s*)?(?P<title>r\s*e\s*f\s*e\s*r\s*e\s*n\s*c\s*e\s*s\s*(\s*s\s*e\s*c\s*t\s*i\s*o\s*n\s*)?)\.?([\)\}\]])?($|\s*[\[\{\(\<]\s*[1a-z]\s*[\}\)\>\]]|\:$)
```
-/
def section_title_pattern_0 : Re :=
  .bos ⬝ (.star true (Re.space)) ⬝ (Re.opt (.set ⟨false, false, [.ch '[', .ch '-', .ch '{', .ch '(']⟩)) ⬝ (.star true (Re.space)) ⬝ (Re.opt ((Re.rep 1 5 (.set ⟨false, false, [.word, .digit]⟩)) ⬝ (Re.opt ((.set ⟨false, false, [.ch '.', .ch '-', .ch ',']⟩) ⬝ (Re.rep 1 5 (.set ⟨false, false, [.word, .digit]⟩)))) ⬝ (.star true (Re.space)) ⬝ (.set ⟨false, false, [.ch '.', .ch '-', .ch '}', .ch ')', .ch ']']⟩) ⬝ (.star true (Re.space)))) ⬝ (.group G.title ((Re.chI 'r') ⬝ (.star true (Re.space)) ⬝ (Re.chI 'e') ⬝ (.star true (Re.space)) ⬝ (Re.chI 'f') ⬝ (.star true (Re.space)) ⬝ (Re.chI 'e') ⬝ (.star true (Re.space)) ⬝ (Re.chI 'r') ⬝ (.star true (Re.space)) ⬝ (Re.chI 'e') ⬝ (.star true (Re.space)) ⬝ (Re.chI 'n') ⬝ (.star true (Re.space)) ⬝ (Re.chI 'c') ⬝ (.star true (Re.space)) ⬝ (Re.chI 'e') ⬝ (.star true (Re.space)) ⬝ (Re.chI 's') ⬝ (.star true (Re.space)) ⬝ Re.opt ((.star true (Re.space)) ⬝ (Re.chI 's') ⬝ (.star true (Re.space)) ⬝ (Re.chI 'e') ⬝ (.star true (Re.space)) ⬝ (Re.chI 'c') ⬝ (.star true (Re.space)) ⬝ (Re.chI 't') ⬝ (.star true (Re.space)) ⬝ (Re.chI 'i') ⬝ (.star true (Re.space)) ⬝ (Re.chI 'o') ⬝ (.star true (Re.space)) ⬝ (Re.chI 'n') ⬝ (.star true (Re.space))))) ⬝ (Re.opt (Re.ch '.')) ⬝ (Re.opt (.set ⟨false, false, [.ch ')', .ch '}', .ch ']']⟩)) ⬝ Re.alts [.eos, (.star true (Re.space)) ⬝ (.set ⟨false, false, [.ch '[', .ch '{', .ch '(', .ch '<']⟩) ⬝ (.star true (Re.space)) ⬝ (.set ⟨false, true, [.ch '1', .range 'a' 'z']⟩) ⬝ (.star true (Re.space)) ⬝ (.set ⟨false, false, [.ch '}', .ch ')', .ch '>', .ch ']']⟩), (Re.ch ':') ⬝ .eos]

/-- `refextract/references/regexs.py:861-908 get_reference_section_title_patterns` flags I
```
^(\d){1,3}\s*(?P<title>r\s*e\s*f\s*e\s*r\s*e\s*n\s*c\s*e\s*s\s*(\s*s\s*e\s*c\s*t\s*i\s*o\s*n\s*)?)\.?([\)\}\]])?($|\s*[\[\{\(\<]\s*[1a-z]\s*[\}\)\>\]]|\:$)
```
-/
def section_title_pattern_1 : Re :=
  .bos ⬝ (Re.rep 1 3 (Re.digit)) ⬝ (.star true (Re.space)) ⬝ (.group G.title ((Re.chI 'r') ⬝ (.star true (Re.space)) ⬝ (Re.chI 'e') ⬝ (.star true (Re.space)) ⬝ (Re.chI 'f') ⬝ (.star true (Re.space)) ⬝ (Re.chI 'e') ⬝ (.star true (Re.space)) ⬝ (Re.chI 'r') ⬝ (.star true (Re.space)) ⬝ (Re.chI 'e') ⬝ (.star true (Re.space)) ⬝ (Re.chI 'n') ⬝ (.star true (Re.space)) ⬝ (Re.chI 'c') ⬝ (.star true (Re.space)) ⬝ (Re.chI 'e') ⬝ (.star true (Re.space)) ⬝ (Re.chI 's') ⬝ (.star true (Re.space)) ⬝ Re.opt ((.star true (Re.space)) ⬝ (Re.chI 's') ⬝ (.star true (Re.space)) ⬝ (Re.chI 'e') ⬝ (.star true (Re.space)) ⬝ (Re.chI 'c') ⬝ (.star true (Re.space)) ⬝ (Re.chI 't') ⬝ (.star true (Re.space)) ⬝ (Re.chI 'i') ⬝ (.star true (Re.space)) ⬝ (Re.chI 'o') ⬝ (.star true (Re.space)) ⬝ (Re.chI 'n') ⬝ (.star true (Re.space))))) ⬝ (Re.opt (Re.ch '.')) ⬝ (Re.opt (.set ⟨false, false, [.ch ')', .ch '}', .ch ']']⟩)) ⬝ Re.alts [.eos, (.star true (Re.space)) ⬝ (.set ⟨false, false, [.ch '[', .ch '{', .ch '(', .ch '<']⟩) ⬝ (.star true (Re.space)) ⬝ (.set ⟨false, true, [.ch '1', .range 'a' 'z']⟩) ⬝ (.star true (Re.space)) ⬝ (.set ⟨false, false, [.ch '}', .ch ')', .ch '>', .ch ']']⟩), (Re.ch ':') ⬝ .eos]

/-- `refextract/references/regexs.py:861-908 get_reference_section_title_patterns` flags I
```
^\s*([\[\-\{\(])?\s*((\w|\d){1,5}([\.\-\,](\w|\d){1,5})?\s*[\.\-\}\)\]]\s*)?(?P<title>r\s*É\s*f\s*é\s*r\s*e\s*n\s*c\s*e\s*s\s*(\s*s\s*e\s*c\s*t\s*i\s*o\s*n\s*)?)\.?([\)\}\]])?($|\s*[\[\{\(\<]\s*[1a-z]\s*[\}\)\>\]]|\:$)
```
-/
def section_title_pattern_2 : Re :=
  .bos ⬝ (.star true (Re.space)) ⬝ (Re.opt (.set ⟨false, false, [.ch '[', .ch '-', .ch '{', .ch '(']⟩)) ⬝ (.star true (Re.space)) ⬝ (Re.opt ((Re.rep 1 5 (.set ⟨false, false, [.word, .digit]⟩)) ⬝ (Re.opt ((.set ⟨false, false, [.ch '.', .ch '-', .ch ',']⟩) ⬝ (Re.rep 1 5 (.set ⟨false, false, [.word, .digit]⟩)))) ⬝ (.star true (Re.space)) ⬝ (.set ⟨false, false, [.ch '.', .ch '-', .ch '}', .ch ')', .ch ']']⟩) ⬝ (.star true (Re.space)))) ⬝ (.group G.title ((Re.chI 'r') ⬝ (.star true (Re.space)) ⬝ (Re.chI '\u00c9') ⬝ (.star true (Re.space)) ⬝ (Re.chI 'f') ⬝ (.star true (Re.space)) ⬝ (Re.chI '\u00e9') ⬝ (.star true (Re.space)) ⬝ (Re.chI 'r') ⬝ (.star true (Re.space)) ⬝ (Re.chI 'e') ⬝ (.star true (Re.space)) ⬝ (Re.chI 'n') ⬝ (.star true (Re.space)) ⬝ (Re.chI 'c') ⬝ (.star true (Re.space)) ⬝ (Re.chI 'e') ⬝ (.star true (Re.space)) ⬝ (Re.chI 's') ⬝ (.star true (Re.space)) ⬝ Re.opt ((.star true (Re.space)) ⬝ (Re.chI 's') ⬝ (.star true (Re.space)) ⬝ (Re.chI 'e') ⬝ (.star true (Re.space)) ⬝ (Re.chI 'c') ⬝ (.star true (Re.space)) ⬝ (Re.chI 't') ⬝ (.star true (Re.space)) ⬝ (Re.chI 'i') ⬝ (.star true (Re.space)) ⬝ (Re.chI 'o') ⬝ (.star true (Re.space)) ⬝ (Re.chI 'n') ⬝ (.star true (Re.space))))) ⬝ (Re.opt (Re.ch '.')) ⬝ (Re.opt (.set ⟨false, false, [.ch ')', .ch '}', .ch ']']⟩)) ⬝ Re.alts [.eos, (.star true (Re.space)) ⬝ (.set ⟨false, false, [.ch '[', .ch '{', .ch '(', .ch '<']⟩) ⬝ (.star true (Re.space)) ⬝ (.set ⟨false, true, [.ch '1', .range 'a' 'z']⟩) ⬝ (.star true (Re.space)) ⬝ (.set ⟨false, false, [.ch '}', .ch ')', .ch '>', .ch ']']⟩), (Re.ch ':') ⬝ .eos]

/-- `refextract/references/regexs.py:861-908 get_reference_section_title_patterns` flags I
```
^(\d){1,3}\s*(?P<title>r\s*É\s*f\s*é\s*r\s*e\s*n\s*c\s*e\s*s\s*(\s*s\s*e\s*c\s*t\s*i\s*o\s*n\s*)?)\.?([\)\}\]])?($|\s*[\[\{\(\<]\s*[1a-z]\s*[\}\)\>\]]|\:$)
```
-/
def section_title_pattern_3 : Re :=
  .bos ⬝ (Re.rep 1 3 (Re.digit)) ⬝ (.star true (Re.space)) ⬝ (.group G.title ((Re.chI 'r') ⬝ (.star true (Re.space)) ⬝ (Re.chI '\u00c9') ⬝ (.star true (Re.space)) ⬝ (Re.chI 'f') ⬝ (.star true (Re.space)) ⬝ (Re.chI '\u00e9') ⬝ (.star true (Re.space)) ⬝ (Re.chI 'r') ⬝ (.star true (Re.space)) ⬝ (Re.chI 'e') ⬝ (.star true (Re.space)) ⬝ (Re.chI 'n') ⬝ (.star true (Re.space)) ⬝ (Re.chI 'c') ⬝ (.star true (Re.space)) ⬝ (Re.chI 'e') ⬝ (.star true (Re.space)) ⬝ (Re.chI 's') ⬝ (.star true (Re.space)) ⬝ Re.opt ((.star true (Re.space)) ⬝ (Re.chI 's') ⬝ (.star true (Re.space)) ⬝ (Re.chI 'e') ⬝ (.star true (Re.space)) ⬝ (Re.chI 'c') ⬝ (.star true (Re.space)) ⬝ (Re.chI 't') ⬝ (.star true (Re.space)) ⬝ (Re.chI 'i') ⬝ (.star true (Re.space)) ⬝ (Re.chI 'o') ⬝ (.star true (Re.space)) ⬝ (Re.chI 'n') ⬝ (.star true (Re.space))))) ⬝ (Re.opt (Re.ch '.')) ⬝ (Re.opt (.set ⟨false, false, [.ch ')', .ch '}', .ch ']']⟩)) ⬝ Re.alts [.eos, (.star true (Re.space)) ⬝ (.set ⟨false, false, [.ch '[', .ch '{', .ch '(', .ch '<']⟩) ⬝ (.star true (Re.space)) ⬝ (.set ⟨false, true, [.ch '1', .range 'a' 'z']⟩) ⬝ (.star true (Re.space)) ⬝ (.set ⟨false, false, [.ch '}', .ch ')', .ch '>', .ch ']']⟩), (Re.ch ':') ⬝ .eos]

/-- `refextract/references/regexs.py:861-908 get_reference_section_title_patterns` flags I
```
^\s*([\[\-\{\(])?\s*((\w|\d){1,5}([\.\-\,](\w|\d){1,5})?\s*[\.\-\}\)\]]\s*)?(?P<title>r\s*É\s*f\s*É\s*r\s*e\s*n\s*c\s*e\s*s\s*(\s*s\s*e\s*c\s*t\s*i\s*o\s*n\s*)?)\.?([\)\}\]])?($|\s*[\[\{\(\<]\s*[1a-z]\s*[\}\)\>\]]|\:$)
```
-/
def section_title_pattern_4 : Re :=
  .bos ⬝ (.star true (Re.space)) ⬝ (Re.opt (.set ⟨false, false, [.ch '[', .ch '-', .ch '{', .ch '(']⟩)) ⬝ (.star true (Re.space)) ⬝ (Re.opt ((Re.rep 1 5 (.set ⟨false, false, [.word, .digit]⟩)) ⬝ (Re.opt ((.set ⟨false, false, [.ch '.', .ch '-', .ch ',']⟩) ⬝ (Re.rep 1 5 (.set ⟨false, false, [.word, .digit]⟩)))) ⬝ (.star true (Re.space)) ⬝ (.set ⟨false, false, [.ch '.', .ch '-', .ch '}', .ch ')', .ch ']']⟩) ⬝ (.star true (Re.space)))) ⬝ (.group G.title ((Re.chI 'r') ⬝ (.star true (Re.space)) ⬝ (Re.chI '\u00c9') ⬝ (.star true (Re.space)) ⬝ (Re.chI 'f') ⬝ (.star true (Re.space)) ⬝ (Re.chI '\u00c9') ⬝ (.star true (Re.space)) ⬝ (Re.chI 'r') ⬝ (.star true (Re.space)) ⬝ (Re.chI 'e') ⬝ (.star true (Re.space)) ⬝ (Re.chI 'n') ⬝ (.star true (Re.space)) ⬝ (Re.chI 'c') ⬝ (.star true (Re.space)) ⬝ (Re.chI 'e') ⬝ (.star true (Re.space)) ⬝ (Re.chI 's') ⬝ (.star true (Re.space)) ⬝ Re.opt ((.star true (Re.space)) ⬝ (Re.chI 's') ⬝ (.star true (Re.space)) ⬝ (Re.chI 'e') ⬝ (.star true (Re.space)) ⬝ (Re.chI 'c') ⬝ (.star true (Re.space)) ⬝ (Re.chI 't') ⬝ (.star true (Re.space)) ⬝ (Re.chI 'i') ⬝ (.star true (Re.space)) ⬝ (Re.chI 'o') ⬝ (.star true (Re.space)) ⬝ (Re.chI 'n') ⬝ (.star true (Re.space))))) ⬝ (Re.opt (Re.ch '.')) ⬝ (Re.opt (.set ⟨false, false, [.ch ')', .ch '}', .ch ']']⟩)) ⬝ Re.alts [.eos, (.star true (Re.space)) ⬝ (.set ⟨false, false, [.ch '[', .ch '{', .ch '(', .ch '<']⟩) ⬝ (.star true (Re.space)) ⬝ (.set ⟨false, true, [.ch '1', .range 'a' 'z']⟩) ⬝ (.star true (Re.space)) ⬝ (.set ⟨false, false, [.ch '}', .ch ')', .ch '>', .ch ']']⟩), (Re.ch ':') ⬝ .eos]

/-- `refextract/references/regexs.py:861-908 get_reference_section_title_patterns` flags I
```
^(\d){1,3}\s*(?P<title>r\s*É\s*f\s*É\s*r\s*e\s*n\s*c\s*e\s*s\s*(\s*s\s*e\s*c\s*t\s*i\s*o\s*n\s*)?)\.?([\)\}\]])?($|\s*[\[\{\(\<]\s*[1a-z]\s*[\}\)\>\]]|\:$)
```
-/
def section_title_pattern_5 : Re :=
  .bos ⬝ (Re.rep 1 3 (Re.digit)) ⬝ (.star true (Re.space)) ⬝ (.group G.title ((Re.chI 'r') ⬝ (.star true (Re.space)) ⬝ (Re.chI '\u00c9') ⬝ (.star true (Re.space)) ⬝ (Re.chI 'f') ⬝ (.star true (Re.space)) ⬝ (Re.chI '\u00c9') ⬝ (.star true (Re.space)) ⬝ (Re.chI 'r') ⬝ (.star true (Re.space)) ⬝ (Re.chI 'e') ⬝ (.star true (Re.space)) ⬝ (Re.chI 'n') ⬝ (.star true (Re.space)) ⬝ (Re.chI 'c') ⬝ (.star true (Re.space)) ⬝ (Re.chI 'e') ⬝ (.star true (Re.space)) ⬝ (Re.chI 's') ⬝ (.star true (Re.space)) ⬝ Re.opt ((.star true (Re.space)) ⬝ (Re.chI 's') ⬝ (.star true (Re.space)) ⬝ (Re.chI 'e') ⬝ (.star true (Re.space)) ⬝ (Re.chI 'c') ⬝ (.star true (Re.space)) ⬝ (Re.chI 't') ⬝ (.star true (Re.space)) ⬝ (Re.chI 'i') ⬝ (.star true (Re.space)) ⬝ (Re.chI 'o') ⬝ (.star true (Re.space)) ⬝ (Re.chI 'n') ⬝ (.star true (Re.space))))) ⬝ (Re.opt (Re.ch '.')) ⬝ (Re.opt (.set ⟨false, false, [.ch ')', .ch '}', .ch ']']⟩)) ⬝ Re.alts [.eos, (.star true (Re.space)) ⬝ (.set ⟨false, false, [.ch '[', .ch '{', .ch '(', .ch '<']⟩) ⬝ (.star true (Re.space)) ⬝ (.set ⟨false, true, [.ch '1', .range 'a' 'z']⟩) ⬝ (.star true (Re.space)) ⬝ (.set ⟨false, false, [.ch '}', .ch ')', .ch '>', .ch ']']⟩), (Re.ch ':') ⬝ .eos]

/-- `refextract/references/regexs.py:861-908 get_reference_section_title_patterns` flags I
```
^\s*([\[\-\{\(])?\s*((\w|\d){1,5}([\.\-\,](\w|\d){1,5})?\s*[\.\-\}\)\]]\s*)?(?P<title>r\s*´\s*e\s*f\s*´\s*e\s*r\s*e\s*n\s*c\s*e\s*s\s*(\s*s\s*e\s*c\s*t\s*i\s*o\s*n\s*)?)\.?([\)\}\]])?($|\s*[\[\{\(\<]\s*[1a-z]\s*[\}\)\>\]]|\:$)
```
-/
def section_title_pattern_6 : Re :=
  .bos ⬝ (.star true (Re.space)) ⬝ (Re.opt (.set ⟨false, false, [.ch '[', .ch '-', .ch '{', .ch '(']⟩)) ⬝ (.star true (Re.space)) ⬝ (Re.opt ((Re.rep 1 5 (.set ⟨false, false, [.word, .digit]⟩)) ⬝ (Re.opt ((.set ⟨false, false, [.ch '.', .ch '-', .ch ',']⟩) ⬝ (Re.rep 1 5 (.set ⟨false, false, [.word, .digit]⟩)))) ⬝ (.star true (Re.space)) ⬝ (.set ⟨false, false, [.ch '.', .ch '-', .ch '}', .ch ')', .ch ']']⟩) ⬝ (.star true (Re.space)))) ⬝ (.group G.title ((Re.chI 'r') ⬝ (.star true (Re.space)) ⬝ (Re.ch '\u00b4') ⬝ (.star true (Re.space)) ⬝ (Re.chI 'e') ⬝ (.star true (Re.space)) ⬝ (Re.chI 'f') ⬝ (.star true (Re.space)) ⬝ (Re.ch '\u00b4') ⬝ (.star true (Re.space)) ⬝ (Re.chI 'e') ⬝ (.star true (Re.space)) ⬝ (Re.chI 'r') ⬝ (.star true (Re.space)) ⬝ (Re.chI 'e') ⬝ (.star true (Re.space)) ⬝ (Re.chI 'n') ⬝ (.star true (Re.space)) ⬝ (Re.chI 'c') ⬝ (.star true (Re.space)) ⬝ (Re.chI 'e') ⬝ (.star true (Re.space)) ⬝ (Re.chI 's') ⬝ (.star true (Re.space)) ⬝ Re.opt ((.star true (Re.space)) ⬝ (Re.chI 's') ⬝ (.star true (Re.space)) ⬝ (Re.chI 'e') ⬝ (.star true (Re.space)) ⬝ (Re.chI 'c') ⬝ (.star true (Re.space)) ⬝ (Re.chI 't') ⬝ (.star true (Re.space)) ⬝ (Re.chI 'i') ⬝ (.star true (Re.space)) ⬝ (Re.chI 'o') ⬝ (.star true (Re.space)) ⬝ (Re.chI 'n') ⬝ (.star true (Re.space))))) ⬝ (Re.opt (Re.ch '.')) ⬝ (Re.opt (.set ⟨false, false, [.ch ')', .ch '}', .ch ']']⟩)) ⬝ Re.alts [.eos, (.star true (Re.space)) ⬝ (.set ⟨false, false, [.ch '[', .ch '{', .ch '(', .ch '<']⟩) ⬝ (.star true (Re.space)) ⬝ (.set ⟨false, true, [.ch '1', .range 'a' 'z']⟩) ⬝ (.star true (Re.space)) ⬝ (.set ⟨false, false, [.ch '}', .ch ')', .ch '>', .ch ']']⟩), (Re.ch ':') ⬝ .eos]

/-- `refextract/references/regexs.py:861-908 get_reference_section_title_patterns` flags I
```
^(\d){1,3}\s*(?P<title>r\s*´\s*e\s*f\s*´\s*e\s*r\s*e\s*n\s*c\s*e\s*s\s*(\s*s\s*e\s*c\s*t\s*i\s*o\s*n\s*)?)\.?([\)\}\]])?($|\s*[\[\{\(\<]\s*[1a-z]\s*[\}\)\>\]]|\:$)
```
-/
def section_title_pattern_7 : Re :=
  .bos ⬝ (Re.rep 1 3 (Re.digit)) ⬝ (.star true (Re.space)) ⬝ (.group G.title ((Re.chI 'r') ⬝ (.star true (Re.space)) ⬝ (Re.ch '\u00b4') ⬝ (.star true (Re.space)) ⬝ (Re.chI 'e') ⬝ (.star true (Re.space)) ⬝ (Re.chI 'f') ⬝ (.star true (Re.space)) ⬝ (Re.ch '\u00b4') ⬝ (.star true (Re.space)) ⬝ (Re.chI 'e') ⬝ (.star true (Re.space)) ⬝ (Re.chI 'r') ⬝ (.star true (Re.space)) ⬝ (Re.chI 'e') ⬝ (.star true (Re.space)) ⬝ (Re.chI 'n') ⬝ (.star true (Re.space)) ⬝ (Re.chI 'c') ⬝ (.star true (Re.space)) ⬝ (Re.chI 'e') ⬝ (.star true (Re.space)) ⬝ (Re.chI 's') ⬝ (.star true (Re.space)) ⬝ Re.opt ((.star true (Re.space)) ⬝ (Re.chI 's') ⬝ (.star true (Re.space)) ⬝ (Re.chI 'e') ⬝ (.star true (Re.space)) ⬝ (Re.chI 'c') ⬝ (.star true (Re.space)) ⬝ (Re.chI 't') ⬝ (.star true (Re.space)) ⬝ (Re.chI 'i') ⬝ (.star true (Re.space)) ⬝ (Re.chI 'o') ⬝ (.star true (Re.space)) ⬝ (Re.chI 'n') ⬝ (.star true (Re.space))))) ⬝ (Re.opt (Re.ch '.')) ⬝ (Re.opt (.set ⟨false, false, [.ch ')', .ch '}', .ch ']']⟩)) ⬝ Re.alts [.eos, (.star true (Re.space)) ⬝ (.set ⟨false, false, [.ch '[', .ch '{', .ch '(', .ch '<']⟩) ⬝ (.star true (Re.space)) ⬝ (.set ⟨false, true, [.ch '1', .range 'a' 'z']⟩) ⬝ (.star true (Re.space)) ⬝ (.set ⟨false, false, [.ch '}', .ch ')', .ch '>', .ch ']']⟩), (Re.ch ':') ⬝ .eos]

/-- `refextract/references/regexs.py:861-908 get_reference_section_title_patterns` flags I
```
^\s*([\[\-\{\(])?\s*((\w|\d){1,5}([\.\-\,](\w|\d){1,5})?\s*[\.\-\}\)\]]\s*)?(?P<title>b\s*i\s*b\s*l\s*i\s*o\s*g\s*r\s*a\s*p\s*h\s*y\s*(\s*s\s*e\s*c\s*t\s*i\s*o\s*n\s*)?)\.?([\)\}\]])?($|\s*[\[\{\(\<]\s*[1a-z]\s*[\}\)\>\]]|\:$)
```
-/
def section_title_pattern_8 : Re :=
  .bos ⬝ (.star true (Re.space)) ⬝ (Re.opt (.set ⟨false, false, [.ch '[', .ch '-', .ch '{', .ch '(']⟩)) ⬝ (.star true (Re.space)) ⬝ (Re.opt ((Re.rep 1 5 (.set ⟨false, false, [.word, .digit]⟩)) ⬝ (Re.opt ((.set ⟨false, false, [.ch '.', .ch '-', .ch ',']⟩) ⬝ (Re.rep 1 5 (.set ⟨false, false, [.word, .digit]⟩)))) ⬝ (.star true (Re.space)) ⬝ (.set ⟨false, false, [.ch '.', .ch '-', .ch '}', .ch ')', .ch ']']⟩) ⬝ (.star true (Re.space)))) ⬝ (.group G.title ((Re.chI 'b') ⬝ (.star true (Re.space)) ⬝ (Re.chI 'i') ⬝ (.star true (Re.space)) ⬝ (Re.chI 'b') ⬝ (.star true (Re.space)) ⬝ (Re.chI 'l') ⬝ (.star true (Re.space)) ⬝ (Re.chI 'i') ⬝ (.star true (Re.space)) ⬝ (Re.chI 'o') ⬝ (.star true (Re.space)) ⬝ (Re.chI 'g') ⬝ (.star true (Re.space)) ⬝ (Re.chI 'r') ⬝ (.star true (Re.space)) ⬝ (Re.chI 'a') ⬝ (.star true (Re.space)) ⬝ (Re.chI 'p') ⬝ (.star true (Re.space)) ⬝ (Re.chI 'h') ⬝ (.star true (Re.space)) ⬝ (Re.chI 'y') ⬝ (.star true (Re.space)) ⬝ Re.opt ((.star true (Re.space)) ⬝ (Re.chI 's') ⬝ (.star true (Re.space)) ⬝ (Re.chI 'e') ⬝ (.star true (Re.space)) ⬝ (Re.chI 'c') ⬝ (.star true (Re.space)) ⬝ (Re.chI 't') ⬝ (.star true (Re.space)) ⬝ (Re.chI 'i') ⬝ (.star true (Re.space)) ⬝ (Re.chI 'o') ⬝ (.star true (Re.space)) ⬝ (Re.chI 'n') ⬝ (.star true (Re.space))))) ⬝ (Re.opt (Re.ch '.')) ⬝ (Re.opt (.set ⟨false, false, [.ch ')', .ch '}', .ch ']']⟩)) ⬝ Re.alts [.eos, (.star true (Re.space)) ⬝ (.set ⟨false, false, [.ch '[', .ch '{', .ch '(', .ch '<']⟩) ⬝ (.star true (Re.space)) ⬝ (.set ⟨false, true, [.ch '1', .range 'a' 'z']⟩) ⬝ (.star true (Re.space)) ⬝ (.set ⟨false, false, [.ch '}', .ch ')', .ch '>', .ch ']']⟩), (Re.ch ':') ⬝ .eos]

/-- `refextract/references/regexs.py:861-908 get_reference_section_title_patterns` flags I
```
^(\d){1,3}\s*(?P<title>b\s*i\s*b\s*l\s*i\s*o\s*g\s*r\s*a\s*p\s*h\s*y\s*(\s*s\s*e\s*c\s*t\s*i\s*o\s*n\s*)?)\.?([\)\}\]])?($|\s*[\[\{\(\<]\s*[1a-z]\s*[\}\)\>\]]|\:$)
```
-/
def section_title_pattern_9 : Re :=
  .bos ⬝ (Re.rep 1 3 (Re.digit)) ⬝ (.star true (Re.space)) ⬝ (.group G.title ((Re.chI 'b') ⬝ (.star true (Re.space)) ⬝ (Re.chI 'i') ⬝ (.star true (Re.space)) ⬝ (Re.chI 'b') ⬝ (.star true (Re.space)) ⬝ (Re.chI 'l') ⬝ (.star true (Re.space)) ⬝ (Re.chI 'i') ⬝ (.star true (Re.space)) ⬝ (Re.chI 'o') ⬝ (.star true (Re.space)) ⬝ (Re.chI 'g') ⬝ (.star true (Re.space)) ⬝ (Re.chI 'r') ⬝ (.star true (Re.space)) ⬝ (Re.chI 'a') ⬝ (.star true (Re.space)) ⬝ (Re.chI 'p') ⬝ (.star true (Re.space)) ⬝ (Re.chI 'h') ⬝ (.star true (Re.space)) ⬝ (Re.chI 'y') ⬝ (.star true (Re.space)) ⬝ Re.opt ((.star true (Re.space)) ⬝ (Re.chI 's') ⬝ (.star true (Re.space)) ⬝ (Re.chI 'e') ⬝ (.star true (Re.space)) ⬝ (Re.chI 'c') ⬝ (.star true (Re.space)) ⬝ (Re.chI 't') ⬝ (.star true (Re.space)) ⬝ (Re.chI 'i') ⬝ (.star true (Re.space)) ⬝ (Re.chI 'o') ⬝ (.star true (Re.space)) ⬝ (Re.chI 'n') ⬝ (.star true (Re.space))))) ⬝ (Re.opt (Re.ch '.')) ⬝ (Re.opt (.set ⟨false, false, [.ch ')', .ch '}', .ch ']']⟩)) ⬝ Re.alts [.eos, (.star true (Re.space)) ⬝ (.set ⟨false, false, [.ch '[', .ch '{', .ch '(', .ch '<']⟩) ⬝ (.star true (Re.space)) ⬝ (.set ⟨false, true, [.ch '1', .range 'a' 'z']⟩) ⬝ (.star true (Re.space)) ⬝ (.set ⟨false, false, [.ch '}', .ch ')', .ch '>', .ch ']']⟩), (Re.ch ':') ⬝ .eos]

/-- `refextract/references/regexs.py:861-908 get_reference_section_title_patterns` flags I
```
^\s*([\[\-\{\(])?\s*((\w|\d){1,5}([\.\-\,](\w|\d){1,5})?\s*[\.\-\}\)\]]\s*)?(?P<title>b\s*i\s*b\s*l\s*i\s*o\s*g\s*r\s*a\s*p\s*h\s*i\s*e\s*(\s*s\s*e\s*c\s*t\s*i\s*o\s*n\s*)?)\.?([\)\}\]])?($|\s*[\[\{\(\<]\s*[1a-z]\s*[\}\)\>\]]|\:$)
```
-/
def section_title_pattern_10 : Re :=
  .bos ⬝ (.star true (Re.space)) ⬝ (Re.opt (.set ⟨false, false, [.ch '[', .ch '-', .ch '{', .ch '(']⟩)) ⬝ (.star true (Re.space)) ⬝ (Re.opt ((Re.rep 1 5 (.set ⟨false, false, [.word, .digit]⟩)) ⬝ (Re.opt ((.set ⟨false, false, [.ch '.', .ch '-', .ch ',']⟩) ⬝ (Re.rep 1 5 (.set ⟨false, false, [.word, .digit]⟩)))) ⬝ (.star true (Re.space)) ⬝ (.set ⟨false, false, [.ch '.', .ch '-', .ch '}', .ch ')', .ch ']']⟩) ⬝ (.star true (Re.space)))) ⬝ (.group G.title ((Re.chI 'b') ⬝ (.star true (Re.space)) ⬝ (Re.chI 'i') ⬝ (.star true (Re.space)) ⬝ (Re.chI 'b') ⬝ (.star true (Re.space)) ⬝ (Re.chI 'l') ⬝ (.star true (Re.space)) ⬝ (Re.chI 'i') ⬝ (.star true (Re.space)) ⬝ (Re.chI 'o') ⬝ (.star true (Re.space)) ⬝ (Re.chI 'g') ⬝ (.star true (Re.space)) ⬝ (Re.chI 'r') ⬝ (.star true (Re.space)) ⬝ (Re.chI 'a') ⬝ (.star true (Re.space)) ⬝ (Re.chI 'p') ⬝ (.star true (Re.space)) ⬝ (Re.chI 'h') ⬝ (.star true (Re.space)) ⬝ (Re.chI 'i') ⬝ (.star true (Re.space)) ⬝ (Re.chI 'e') ⬝ (.star true (Re.space)) ⬝ Re.opt ((.star true (Re.space)) ⬝ (Re.chI 's') ⬝ (.star true (Re.space)) ⬝ (Re.chI 'e') ⬝ (.star true (Re.space)) ⬝ (Re.chI 'c') ⬝ (.star true (Re.space)) ⬝ (Re.chI 't') ⬝ (.star true (Re.space)) ⬝ (Re.chI 'i') ⬝ (.star true (Re.space)) ⬝ (Re.chI 'o') ⬝ (.star true (Re.space)) ⬝ (Re.chI 'n') ⬝ (.star true (Re.space))))) ⬝ (Re.opt (Re.ch '.')) ⬝ (Re.opt (.set ⟨false, false, [.ch ')', .ch '}', .ch ']']⟩)) ⬝ Re.alts [.eos, (.star true (Re.space)) ⬝ (.set ⟨false, false, [.ch '[', .ch '{', .ch '(', .ch '<']⟩) ⬝ (.star true (Re.space)) ⬝ (.set ⟨false, true, [.ch '1', .range 'a' 'z']⟩) ⬝ (.star true (Re.space)) ⬝ (.set ⟨false, false, [.ch '}', .ch ')', .ch '>', .ch ']']⟩), (Re.ch ':') ⬝ .eos]

/-- `refextract/references/regexs.py:861-908 get_reference_section_title_patterns` flags I
```
^(\d){1,3}\s*(?P<title>b\s*i\s*b\s*l\s*i\s*o\s*g\s*r\s*a\s*p\s*h\s*i\s*e\s*(\s*s\s*e\s*c\s*t\s*i\s*o\s*n\s*)?)\.?([\)\}\]])?($|\s*[\[\{\(\<]\s*[1a-z]\s*[\}\)\>\]]|\:$)
```
-/
def section_title_pattern_11 : Re :=
  .bos ⬝ (Re.rep 1 3 (Re.digit)) ⬝ (.star true (Re.space)) ⬝ (.group G.title ((Re.chI 'b') ⬝ (.star true (Re.space)) ⬝ (Re.chI 'i') ⬝ (.star true (Re.space)) ⬝ (Re.chI 'b') ⬝ (.star true (Re.space)) ⬝ (Re.chI 'l') ⬝ (.star true (Re.space)) ⬝ (Re.chI 'i') ⬝ (.star true (Re.space)) ⬝ (Re.chI 'o') ⬝ (.star true (Re.space)) ⬝ (Re.chI 'g') ⬝ (.star true (Re.space)) ⬝ (Re.chI 'r') ⬝ (.star true (Re.space)) ⬝ (Re.chI 'a') ⬝ (.star true (Re.space)) ⬝ (Re.chI 'p') ⬝ (.star true (Re.space)) ⬝ (Re.chI 'h') ⬝ (.star true (Re.space)) ⬝ (Re.chI 'i') ⬝ (.star true (Re.space)) ⬝ (Re.chI 'e') ⬝ (.star true (Re.space)) ⬝ Re.opt ((.star true (Re.space)) ⬝ (Re.chI 's') ⬝ (.star true (Re.space)) ⬝ (Re.chI 'e') ⬝ (.star true (Re.space)) ⬝ (Re.chI 'c') ⬝ (.star true (Re.space)) ⬝ (Re.chI 't') ⬝ (.star true (Re.space)) ⬝ (Re.chI 'i') ⬝ (.star true (Re.space)) ⬝ (Re.chI 'o') ⬝ (.star true (Re.space)) ⬝ (Re.chI 'n') ⬝ (.star true (Re.space))))) ⬝ (Re.opt (Re.ch '.')) ⬝ (Re.opt (.set ⟨false, false, [.ch ')', .ch '}', .ch ']']⟩)) ⬝ Re.alts [.eos, (.star true (Re.space)) ⬝ (.set ⟨false, false, [.ch '[', .ch '{', .ch '(', .ch '<']⟩) ⬝ (.star true (Re.space)) ⬝ (.set ⟨false, true, [.ch '1', .range 'a' 'z']⟩) ⬝ (.star true (Re.space)) ⬝ (.set ⟨false, false, [.ch '}', .ch ')', .ch '>', .ch ']']⟩), (Re.ch ':') ⬝ .eos]

/-- `refextract/references/regexs.py:861-908 get_reference_section_title_patterns` flags I
```
^\s*([\[\-\{\(])?\s*((\w|\d){1,5}([\.\-\,](\w|\d){1,5})?\s*[\.\-\}\)\]]\s*)?(?P<title>l\s*i\s*t\s*e\s*r\s*a\s*t\s*u\s*r\s*v\s*e\s*r\s*z\s*e\s*i\s*c\s*h\s*n\s*i\s*s\s*(\s*s\s*e\s*c\s*t\s*i\s*o\s*n\s*)?)\.?([\)\}\]])?($|\s*[\[\{\(\<]\s*[1a-z]\s*[\}\)\>\]]|\:$)
```
-/
def section_title_pattern_12 : Re :=
  .bos ⬝ (.star true (Re.space)) ⬝ (Re.opt (.set ⟨false, false, [.ch '[', .ch '-', .ch '{', .ch '(']⟩)) ⬝ (.star true (Re.space)) ⬝ (Re.opt ((Re.rep 1 5 (.set ⟨false, false, [.word, .digit]⟩)) ⬝ (Re.opt ((.set ⟨false, false, [.ch '.', .ch '-', .ch ',']⟩) ⬝ (Re.rep 1 5 (.set ⟨false, false, [.word, .digit]⟩)))) ⬝ (.star true (Re.space)) ⬝ (.set ⟨false, false, [.ch '.', .ch '-', .ch '}', .ch ')', .ch ']']⟩) ⬝ (.star true (Re.space)))) ⬝ (.group G.title ((Re.chI 'l') ⬝ (.star true (Re.space)) ⬝ (Re.chI 'i') ⬝ (.star true (Re.space)) ⬝ (Re.chI 't') ⬝ (.star true (Re.space)) ⬝ (Re.chI 'e') ⬝ (.star true (Re.space)) ⬝ (Re.chI 'r') ⬝ (.star true (Re.space)) ⬝ (Re.chI 'a') ⬝ (.star true (Re.space)) ⬝ (Re.chI 't') ⬝ (.star true (Re.space)) ⬝ (Re.chI 'u') ⬝ (.star true (Re.space)) ⬝ (Re.chI 'r') ⬝ (.star true (Re.space)) ⬝ (Re.chI 'v') ⬝ (.star true (Re.space)) ⬝ (Re.chI 'e') ⬝ (.star true (Re.space)) ⬝ (Re.chI 'r') ⬝ (.star true (Re.space)) ⬝ (Re.chI 'z') ⬝ (.star true (Re.space)) ⬝ (Re.chI 'e') ⬝ (.star true (Re.space)) ⬝ (Re.chI 'i') ⬝ (.star true (Re.space)) ⬝ (Re.chI 'c') ⬝ (.star true (Re.space)) ⬝ (Re.chI 'h') ⬝ (.star true (Re.space)) ⬝ (Re.chI 'n') ⬝ (.star true (Re.space)) ⬝ (Re.chI 'i') ⬝ (.star true (Re.space)) ⬝ (Re.chI 's') ⬝ (.star true (Re.space)) ⬝ Re.opt ((.star true (Re.space)) ⬝ (Re.chI 's') ⬝ (.star true (Re.space)) ⬝ (Re.chI 'e') ⬝ (.star true (Re.space)) ⬝ (Re.chI 'c') ⬝ (.star true (Re.space)) ⬝ (Re.chI 't') ⬝ (.star true (Re.space)) ⬝ (Re.chI 'i') ⬝ (.star true (Re.space)) ⬝ (Re.chI 'o') ⬝ (.star true (Re.space)) ⬝ (Re.chI 'n') ⬝ (.star true (Re.space))))) ⬝ (Re.opt (Re.ch '.')) ⬝ (Re.opt (.set ⟨false, false, [.ch ')', .ch '}', .ch ']']⟩)) ⬝ Re.alts [.eos, (.star true (Re.space)) ⬝ (.set ⟨false, false, [.ch '[', .ch '{', .ch '(', .ch '<']⟩) ⬝ (.star true (Re.space)) ⬝ (.set ⟨false, true, [.ch '1', .range 'a' 'z']⟩) ⬝ (.star true (Re.space)) ⬝ (.set ⟨false, false, [.ch '}', .ch ')', .ch '>', .ch ']']⟩), (Re.ch ':') ⬝ .eos]

/-- `refextract/references/regexs.py:861-908 get_reference_section_title_patterns` flags I
```
^(\d){1,3}\s*(?P<title>l\s*i\s*t\s*e\s*r\s*a\s*t\s*u\s*r\s*v\s*e\s*r\s*z\s*e\s*i\s*c\s*h\s*n\s*i\s*s\s*(\s*s\s*e\s*c\s*t\s*i\s*o\s*n\s*)?)\.?([\)\}\]])?($|\s*[\[\{\(\<]\s*[1a-z]\s*[\}\)\>\]]|\:$)
```
-/
def section_title_pattern_13 : Re :=
  .bos ⬝ (Re.rep 1 3 (Re.digit)) ⬝ (.star true (Re.space)) ⬝ (.group G.title ((Re.chI 'l') ⬝ (.star true (Re.space)) ⬝ (Re.chI 'i') ⬝ (.star true (Re.space)) ⬝ (Re.chI 't') ⬝ (.star true (Re.space)) ⬝ (Re.chI 'e') ⬝ (.star true (Re.space)) ⬝ (Re.chI 'r') ⬝ (.star true (Re.space)) ⬝ (Re.chI 'a') ⬝ (.star true (Re.space)) ⬝ (Re.chI 't') ⬝ (.star true (Re.space)) ⬝ (Re.chI 'u') ⬝ (.star true (Re.space)) ⬝ (Re.chI 'r') ⬝ (.star true (Re.space)) ⬝ (Re.chI 'v') ⬝ (.star true (Re.space)) ⬝ (Re.chI 'e') ⬝ (.star true (Re.space)) ⬝ (Re.chI 'r') ⬝ (.star true (Re.space)) ⬝ (Re.chI 'z') ⬝ (.star true (Re.space)) ⬝ (Re.chI 'e') ⬝ (.star true (Re.space)) ⬝ (Re.chI 'i') ⬝ (.star true (Re.space)) ⬝ (Re.chI 'c') ⬝ (.star true (Re.space)) ⬝ (Re.chI 'h') ⬝ (.star true (Re.space)) ⬝ (Re.chI 'n') ⬝ (.star true (Re.space)) ⬝ (Re.chI 'i') ⬝ (.star true (Re.space)) ⬝ (Re.chI 's') ⬝ (.star true (Re.space)) ⬝ Re.opt ((.star true (Re.space)) ⬝ (Re.chI 's') ⬝ (.star true (Re.space)) ⬝ (Re.chI 'e') ⬝ (.star true (Re.space)) ⬝ (Re.chI 'c') ⬝ (.star true (Re.space)) ⬝ (Re.chI 't') ⬝ (.star true (Re.space)) ⬝ (Re.chI 'i') ⬝ (.star true (Re.space)) ⬝ (Re.chI 'o') ⬝ (.star true (Re.space)) ⬝ (Re.chI 'n') ⬝ (.star true (Re.space))))) ⬝ (Re.opt (Re.ch '.')) ⬝ (Re.opt (.set ⟨false, false, [.ch ')', .ch '}', .ch ']']⟩)) ⬝ Re.alts [.eos, (.star true (Re.space)) ⬝ (.set ⟨false, false, [.ch '[', .ch '{', .ch '(', .ch '<']⟩) ⬝ (.star true (Re.space)) ⬝ (.set ⟨false, true, [.ch '1', .range 'a' 'z']⟩) ⬝ (.star true (Re.space)) ⬝ (.set ⟨false, false, [.ch '}', .ch ')', .ch '>', .ch ']']⟩), (Re.ch ':') ⬝ .eos]

/-- `refextract/references/regexs.py:861-908 get_reference_section_title_patterns` flags I
```
^\s*([\[\-\{\(])?\s*((\w|\d){1,5}([\.\-\,](\w|\d){1,5})?\s*[\.\-\}\)\]]\s*)?(?P<title>c\s*i\s*t\s*a\s*t\s*i\s*o\s*n\s*s\s*(\s*s\s*e\s*c\s*t\s*i\s*o\s*n\s*)?)\.?([\)\}\]])?($|\s*[\[\{\(\<]\s*[1a-z]\s*[\}\)\>\]]|\:$)
```
-/
def section_title_pattern_14 : Re :=
  .bos ⬝ (.star true (Re.space)) ⬝ (Re.opt (.set ⟨false, false, [.ch '[', .ch '-', .ch '{', .ch '(']⟩)) ⬝ (.star true (Re.space)) ⬝ (Re.opt ((Re.rep 1 5 (.set ⟨false, false, [.word, .digit]⟩)) ⬝ (Re.opt ((.set ⟨false, false, [.ch '.', .ch '-', .ch ',']⟩) ⬝ (Re.rep 1 5 (.set ⟨false, false, [.word, .digit]⟩)))) ⬝ (.star true (Re.space)) ⬝ (.set ⟨false, false, [.ch '.', .ch '-', .ch '}', .ch ')', .ch ']']⟩) ⬝ (.star true (Re.space)))) ⬝ (.group G.title ((Re.chI 'c') ⬝ (.star true (Re.space)) ⬝ (Re.chI 'i') ⬝ (.star true (Re.space)) ⬝ (Re.chI 't') ⬝ (.star true (Re.space)) ⬝ (Re.chI 'a') ⬝ (.star true (Re.space)) ⬝ (Re.chI 't') ⬝ (.star true (Re.space)) ⬝ (Re.chI 'i') ⬝ (.star true (Re.space)) ⬝ (Re.chI 'o') ⬝ (.star true (Re.space)) ⬝ (Re.chI 'n') ⬝ (.star true (Re.space)) ⬝ (Re.chI 's') ⬝ (.star true (Re.space)) ⬝ Re.opt ((.star true (Re.space)) ⬝ (Re.chI 's') ⬝ (.star true (Re.space)) ⬝ (Re.chI 'e') ⬝ (.star true (Re.space)) ⬝ (Re.chI 'c') ⬝ (.star true (Re.space)) ⬝ (Re.chI 't') ⬝ (.star true (Re.space)) ⬝ (Re.chI 'i') ⬝ (.star true (Re.space)) ⬝ (Re.chI 'o') ⬝ (.star true (Re.space)) ⬝ (Re.chI 'n') ⬝ (.star true (Re.space))))) ⬝ (Re.opt (Re.ch '.')) ⬝ (Re.opt (.set ⟨false, false, [.ch ')', .ch '}', .ch ']']⟩)) ⬝ Re.alts [.eos, (.star true (Re.space)) ⬝ (.set ⟨false, false, [.ch '[', .ch '{', .ch '(', .ch '<']⟩) ⬝ (.star true (Re.space)) ⬝ (.set ⟨false, true, [.ch '1', .range 'a' 'z']⟩) ⬝ (.star true (Re.space)) ⬝ (.set ⟨false, false, [.ch '}', .ch ')', .ch '>', .ch ']']⟩), (Re.ch ':') ⬝ .eos]

/-- `refextract/references/regexs.py:861-908 get_reference_section_title_patterns` flags I
```
^(\d){1,3}\s*(?P<title>c\s*i\s*t\s*a\s*t\s*i\s*o\s*n\s*s\s*(\s*s\s*e\s*c\s*t\s*i\s*o\s*n\s*)?)\.?([\)\}\]])?($|\s*[\[\{\(\<]\s*[1a-z]\s*[\}\)\>\]]|\:$)
```
-/
def section_title_pattern_15 : Re :=
  .bos ⬝ (Re.rep 1 3 (Re.digit)) ⬝ (.star true (Re.space)) ⬝ (.group G.title ((Re.chI 'c') ⬝ (.star true (Re.space)) ⬝ (Re.chI 'i') ⬝ (.star true (Re.space)) ⬝ (Re.chI 't') ⬝ (.star true (Re.space)) ⬝ (Re.chI 'a') ⬝ (.star true (Re.space)) ⬝ (Re.chI 't') ⬝ (.star true (Re.space)) ⬝ (Re.chI 'i') ⬝ (.star true (Re.space)) ⬝ (Re.chI 'o') ⬝ (.star true (Re.space)) ⬝ (Re.chI 'n') ⬝ (.star true (Re.space)) ⬝ (Re.chI 's') ⬝ (.star true (Re.space)) ⬝ Re.opt ((.star true (Re.space)) ⬝ (Re.chI 's') ⬝ (.star true (Re.space)) ⬝ (Re.chI 'e') ⬝ (.star true (Re.space)) ⬝ (Re.chI 'c') ⬝ (.star true (Re.space)) ⬝ (Re.chI 't') ⬝ (.star true (Re.space)) ⬝ (Re.chI 'i') ⬝ (.star true (Re.space)) ⬝ (Re.chI 'o') ⬝ (.star true (Re.space)) ⬝ (Re.chI 'n') ⬝ (.star true (Re.space))))) ⬝ (Re.opt (Re.ch '.')) ⬝ (Re.opt (.set ⟨false, false, [.ch ')', .ch '}', .ch ']']⟩)) ⬝ Re.alts [.eos, (.star true (Re.space)) ⬝ (.set ⟨false, false, [.ch '[', .ch '{', .ch '(', .ch '<']⟩) ⬝ (.star true (Re.space)) ⬝ (.set ⟨false, true, [.ch '1', .range 'a' 'z']⟩) ⬝ (.star true (Re.space)) ⬝ (.set ⟨false, false, [.ch '}', .ch ')', .ch '>', .ch ']']⟩), (Re.ch ':') ⬝ .eos]

/-- `refextract/references/regexs.py:861-908 get_reference_section_title_patterns` flags I
```
^\s*([\[\-\{\(])?\s*((\w|\d){1,5}([\.\-\,](\w|\d){1,5})?\s*[\.\-\}\)\]]\s*)?(?P<title>r\s*e\s*f\s*s\s*(\s*s\s*e\s*c\s*t\s*i\s*o\s*n\s*)?)\.?([\)\}\]])?($|\s*[\[\{\(\<]\s*[1a-z]\s*[\}\)\>\]]|\:$)
```
-/
def section_title_pattern_16 : Re :=
  .bos ⬝ (.star true (Re.space)) ⬝ (Re.opt (.set ⟨false, false, [.ch '[', .ch '-', .ch '{', .ch '(']⟩)) ⬝ (.star true (Re.space)) ⬝ (Re.opt ((Re.rep 1 5 (.set ⟨false, false, [.word, .digit]⟩)) ⬝ (Re.opt ((.set ⟨false, false, [.ch '.', .ch '-', .ch ',']⟩) ⬝ (Re.rep 1 5 (.set ⟨false, false, [.word, .digit]⟩)))) ⬝ (.star true (Re.space)) ⬝ (.set ⟨false, false, [.ch '.', .ch '-', .ch '}', .ch ')', .ch ']']⟩) ⬝ (.star true (Re.space)))) ⬝ (.group G.title ((Re.chI 'r') ⬝ (.star true (Re.space)) ⬝ (Re.chI 'e') ⬝ (.star true (Re.space)) ⬝ (Re.chI 'f') ⬝ (.star true (Re.space)) ⬝ (Re.chI 's') ⬝ (.star true (Re.space)) ⬝ Re.opt ((.star true (Re.space)) ⬝ (Re.chI 's') ⬝ (.star true (Re.space)) ⬝ (Re.chI 'e') ⬝ (.star true (Re.space)) ⬝ (Re.chI 'c') ⬝ (.star true (Re.space)) ⬝ (Re.chI 't') ⬝ (.star true (Re.space)) ⬝ (Re.chI 'i') ⬝ (.star true (Re.space)) ⬝ (Re.chI 'o') ⬝ (.star true (Re.space)) ⬝ (Re.chI 'n') ⬝ (.star true (Re.space))))) ⬝ (Re.opt (Re.ch '.')) ⬝ (Re.opt (.set ⟨false, false, [.ch ')', .ch '}', .ch ']']⟩)) ⬝ Re.alts [.eos, (.star true (Re.space)) ⬝ (.set ⟨false, false, [.ch '[', .ch '{', .ch '(', .ch '<']⟩) ⬝ (.star true (Re.space)) ⬝ (.set ⟨false, true, [.ch '1', .range 'a' 'z']⟩) ⬝ (.star true (Re.space)) ⬝ (.set ⟨false, false, [.ch '}', .ch ')', .ch '>', .ch ']']⟩), (Re.ch ':') ⬝ .eos]

/-- `refextract/references/regexs.py:861-908 get_reference_section_title_patterns` flags I
```
^(\d){1,3}\s*(?P<title>r\s*e\s*f\s*s\s*(\s*s\s*e\s*c\s*t\s*i\s*o\s*n\s*)?)\.?([\)\}\]])?($|\s*[\[\{\(\<]\s*[1a-z]\s*[\}\)\>\]]|\:$)
```
-/
def section_title_pattern_17 : Re :=
  .bos ⬝ (Re.rep 1 3 (Re.digit)) ⬝ (.star true (Re.space)) ⬝ (.group G.title ((Re.chI 'r') ⬝ (.star true (Re.space)) ⬝ (Re.chI 'e') ⬝ (.star true (Re.space)) ⬝ (Re.chI 'f') ⬝ (.star true (Re.space)) ⬝ (Re.chI 's') ⬝ (.star true (Re.space)) ⬝ Re.opt ((.star true (Re.space)) ⬝ (Re.chI 's') ⬝ (.star true (Re.space)) ⬝ (Re.chI 'e') ⬝ (.star true (Re.space)) ⬝ (Re.chI 'c') ⬝ (.star true (Re.space)) ⬝ (Re.chI 't') ⬝ (.star true (Re.space)) ⬝ (Re.chI 'i') ⬝ (.star true (Re.space)) ⬝ (Re.chI 'o') ⬝ (.star true (Re.space)) ⬝ (Re.chI 'n') ⬝ (.star true (Re.space))))) ⬝ (Re.opt (Re.ch '.')) ⬝ (Re.opt (.set ⟨false, false, [.ch ')', .ch '}', .ch ']']⟩)) ⬝ Re.alts [.eos, (.star true (Re.space)) ⬝ (.set ⟨false, false, [.ch '[', .ch '{', .ch '(', .ch '<']⟩) ⬝ (.star true (Re.space)) ⬝ (.set ⟨false, true, [.ch '1', .range 'a' 'z']⟩) ⬝ (.star true (Re.space)) ⬝ (.set ⟨false, false, [.ch '}', .ch ')', .ch '>', .ch ']']⟩), (Re.ch ':') ⬝ .eos]

/-- `refextract/references/regexs.py:861-908 get_reference_section_title_patterns` flags I
```
^\s*([\[\-\{\(])?\s*((\w|\d){1,5}([\.\-\,](\w|\d){1,5})?\s*[\.\-\}\)\]]\s*)?(?P<title>p\s*u\s*b\s*l\s*i\s*c\s*a\s*t\s*i\s*o\s*n\s*s\s*r\s*é\s*f\s*s\s*(\s*s\s*e\s*c\s*t\s*i\s*o\s*n\s*)?)\.?([\)\}\]])?($|\s*[\[\{\(\<]\s*[1a-z]\s*[\}\)\>\]]|\:$)
```
-/
def section_title_pattern_18 : Re :=
  .bos ⬝ (.star true (Re.space)) ⬝ (Re.opt (.set ⟨false, false, [.ch '[', .ch '-', .ch '{', .ch '(']⟩)) ⬝ (.star true (Re.space)) ⬝ (Re.opt ((Re.rep 1 5 (.set ⟨false, false, [.word, .digit]⟩)) ⬝ (Re.opt ((.set ⟨false, false, [.ch '.', .ch '-', .ch ',']⟩) ⬝ (Re.rep 1 5 (.set ⟨false, false, [.word, .digit]⟩)))) ⬝ (.star true (Re.space)) ⬝ (.set ⟨false, false, [.ch '.', .ch '-', .ch '}', .ch ')', .ch ']']⟩) ⬝ (.star true (Re.space)))) ⬝ (.group G.title ((Re.chI 'p') ⬝ (.star true (Re.space)) ⬝ (Re.chI 'u') ⬝ (.star true (Re.space)) ⬝ (Re.chI 'b') ⬝ (.star true (Re.space)) ⬝ (Re.chI 'l') ⬝ (.star true (Re.space)) ⬝ (Re.chI 'i') ⬝ (.star true (Re.space)) ⬝ (Re.chI 'c') ⬝ (.star true (Re.space)) ⬝ (Re.chI 'a') ⬝ (.star true (Re.space)) ⬝ (Re.chI 't') ⬝ (.star true (Re.space)) ⬝ (Re.chI 'i') ⬝ (.star true (Re.space)) ⬝ (Re.chI 'o') ⬝ (.star true (Re.space)) ⬝ (Re.chI 'n') ⬝ (.star true (Re.space)) ⬝ (Re.chI 's') ⬝ (.star true (Re.space)) ⬝ (Re.chI 'r') ⬝ (.star true (Re.space)) ⬝ (Re.chI '\u00e9') ⬝ (.star true (Re.space)) ⬝ (Re.chI 'f') ⬝ (.star true (Re.space)) ⬝ (Re.chI 's') ⬝ (.star true (Re.space)) ⬝ Re.opt ((.star true (Re.space)) ⬝ (Re.chI 's') ⬝ (.star true (Re.space)) ⬝ (Re.chI 'e') ⬝ (.star true (Re.space)) ⬝ (Re.chI 'c') ⬝ (.star true (Re.space)) ⬝ (Re.chI 't') ⬝ (.star true (Re.space)) ⬝ (Re.chI 'i') ⬝ (.star true (Re.space)) ⬝ (Re.chI 'o') ⬝ (.star true (Re.space)) ⬝ (Re.chI 'n') ⬝ (.star true (Re.space))))) ⬝ (Re.opt (Re.ch '.')) ⬝ (Re.opt (.set ⟨false, false, [.ch ')', .ch '}', .ch ']']⟩)) ⬝ Re.alts [.eos, (.star true (Re.space)) ⬝ (.set ⟨false, false, [.ch '[', .ch '{', .ch '(', .ch '<']⟩) ⬝ (.star true (Re.space)) ⬝ (.set ⟨false, true, [.ch '1', .range 'a' 'z']⟩) ⬝ (.star true (Re.space)) ⬝ (.set ⟨false, false, [.ch '}', .ch ')', .ch '>', .ch ']']⟩), (Re.ch ':') ⬝ .eos]

/-- `refextract/references/regexs.py:861-908 get_reference_section_title_patterns` flags I
```
^(\d){1,3}\s*(?P<title>p\s*u\s*b\s*l\s*i\s*c\s*a\s*t\s*i\s*o\s*n\s*s\s*r\s*é\s*f\s*s\s*(\s*s\s*e\s*c\s*t\s*i\s*o\s*n\s*)?)\.?([\)\}\]])?($|\s*[\[\{\(\<]\s*[1a-z]\s*[\}\)\>\]]|\:$)
```
-/
def section_title_pattern_19 : Re :=
  .bos ⬝ (Re.rep 1 3 (Re.digit)) ⬝ (.star true (Re.space)) ⬝ (.group G.title ((Re.chI 'p') ⬝ (.star true (Re.space)) ⬝ (Re.chI 'u') ⬝ (.star true (Re.space)) ⬝ (Re.chI 'b') ⬝ (.star true (Re.space)) ⬝ (Re.chI 'l') ⬝ (.star true (Re.space)) ⬝ (Re.chI 'i') ⬝ (.star true (Re.space)) ⬝ (Re.chI 'c') ⬝ (.star true (Re.space)) ⬝ (Re.chI 'a') ⬝ (.star true (Re.space)) ⬝ (Re.chI 't') ⬝ (.star true (Re.space)) ⬝ (Re.chI 'i') ⬝ (.star true (Re.space)) ⬝ (Re.chI 'o') ⬝ (.star true (Re.space)) ⬝ (Re.chI 'n') ⬝ (.star true (Re.space)) ⬝ (Re.chI 's') ⬝ (.star true (Re.space)) ⬝ (Re.chI 'r') ⬝ (.star true (Re.space)) ⬝ (Re.chI '\u00e9') ⬝ (.star true (Re.space)) ⬝ (Re.chI 'f') ⬝ (.star true (Re.space)) ⬝ (Re.chI 's') ⬝ (.star true (Re.space)) ⬝ Re.opt ((.star true (Re.space)) ⬝ (Re.chI 's') ⬝ (.star true (Re.space)) ⬝ (Re.chI 'e') ⬝ (.star true (Re.space)) ⬝ (Re.chI 'c') ⬝ (.star true (Re.space)) ⬝ (Re.chI 't') ⬝ (.star true (Re.space)) ⬝ (Re.chI 'i') ⬝ (.star true (Re.space)) ⬝ (Re.chI 'o') ⬝ (.star true (Re.space)) ⬝ (Re.chI 'n') ⬝ (.star true (Re.space))))) ⬝ (Re.opt (Re.ch '.')) ⬝ (Re.opt (.set ⟨false, false, [.ch ')', .ch '}', .ch ']']⟩)) ⬝ Re.alts [.eos, (.star true (Re.space)) ⬝ (.set ⟨false, false, [.ch '[', .ch '{', .ch '(', .ch '<']⟩) ⬝ (.star true (Re.space)) ⬝ (.set ⟨false, true, [.ch '1', .range 'a' 'z']⟩) ⬝ (.star true (Re.space)) ⬝ (.set ⟨false, false, [.ch '}', .ch ')', .ch '>', .ch ']']⟩), (Re.ch ':') ⬝ .eos]

/-- `refextract/references/regexs.py:861-908 get_reference_section_title_patterns` flags I
```
^\s*([\[\-\{\(])?\s*((\w|\d){1,5}([\.\-\,](\w|\d){1,5})?\s*[\.\-\}\)\]]\s*)?(?P<title>r\s*É\s*f\s*s\s*(\s*s\s*e\s*c\s*t\s*i\s*o\s*n\s*)?)\.?([\)\}\]])?($|\s*[\[\{\(\<]\s*[1a-z]\s*[\}\)\>\]]|\:$)
```
-/
def section_title_pattern_20 : Re :=
  .bos ⬝ (.star true (Re.space)) ⬝ (Re.opt (.set ⟨false, false, [.ch '[', .ch '-', .ch '{', .ch '(']⟩)) ⬝ (.star true (Re.space)) ⬝ (Re.opt ((Re.rep 1 5 (.set ⟨false, false, [.word, .digit]⟩)) ⬝ (Re.opt ((.set ⟨false, false, [.ch '.', .ch '-', .ch ',']⟩) ⬝ (Re.rep 1 5 (.set ⟨false, false, [.word, .digit]⟩)))) ⬝ (.star true (Re.space)) ⬝ (.set ⟨false, false, [.ch '.', .ch '-', .ch '}', .ch ')', .ch ']']⟩) ⬝ (.star true (Re.space)))) ⬝ (.group G.title ((Re.chI 'r') ⬝ (.star true (Re.space)) ⬝ (Re.chI '\u00c9') ⬝ (.star true (Re.space)) ⬝ (Re.chI 'f') ⬝ (.star true (Re.space)) ⬝ (Re.chI 's') ⬝ (.star true (Re.space)) ⬝ Re.opt ((.star true (Re.space)) ⬝ (Re.chI 's') ⬝ (.star true (Re.space)) ⬝ (Re.chI 'e') ⬝ (.star true (Re.space)) ⬝ (Re.chI 'c') ⬝ (.star true (Re.space)) ⬝ (Re.chI 't') ⬝ (.star true (Re.space)) ⬝ (Re.chI 'i') ⬝ (.star true (Re.space)) ⬝ (Re.chI 'o') ⬝ (.star true (Re.space)) ⬝ (Re.chI 'n') ⬝ (.star true (Re.space))))) ⬝ (Re.opt (Re.ch '.')) ⬝ (Re.opt (.set ⟨false, false, [.ch ')', .ch '}', .ch ']']⟩)) ⬝ Re.alts [.eos, (.star true (Re.space)) ⬝ (.set ⟨false, false, [.ch '[', .ch '{', .ch '(', .ch '<']⟩) ⬝ (.star true (Re.space)) ⬝ (.set ⟨false, true, [.ch '1', .range 'a' 'z']⟩) ⬝ (.star true (Re.space)) ⬝ (.set ⟨false, false, [.ch '}', .ch ')', .ch '>', .ch ']']⟩), (Re.ch ':') ⬝ .eos]

/-- `refextract/references/regexs.py:861-908 get_reference_section_title_patterns` flags I
```
^(\d){1,3}\s*(?P<title>r\s*É\s*f\s*s\s*(\s*s\s*e\s*c\s*t\s*i\s*o\s*n\s*)?)\.?([\)\}\]])?($|\s*[\[\{\(\<]\s*[1a-z]\s*[\}\)\>\]]|\:$)
```
-/
def section_title_pattern_21 : Re :=
  .bos ⬝ (Re.rep 1 3 (Re.digit)) ⬝ (.star true (Re.space)) ⬝ (.group G.title ((Re.chI 'r') ⬝ (.star true (Re.space)) ⬝ (Re.chI '\u00c9') ⬝ (.star true (Re.space)) ⬝ (Re.chI 'f') ⬝ (.star true (Re.space)) ⬝ (Re.chI 's') ⬝ (.star true (Re.space)) ⬝ Re.opt ((.star true (Re.space)) ⬝ (Re.chI 's') ⬝ (.star true (Re.space)) ⬝ (Re.chI 'e') ⬝ (.star true (Re.space)) ⬝ (Re.chI 'c') ⬝ (.star true (Re.space)) ⬝ (Re.chI 't') ⬝ (.star true (Re.space)) ⬝ (Re.chI 'i') ⬝ (.star true (Re.space)) ⬝ (Re.chI 'o') ⬝ (.star true (Re.space)) ⬝ (Re.chI 'n') ⬝ (.star true (Re.space))))) ⬝ (Re.opt (Re.ch '.')) ⬝ (Re.opt (.set ⟨false, false, [.ch ')', .ch '}', .ch ']']⟩)) ⬝ Re.alts [.eos, (.star true (Re.space)) ⬝ (.set ⟨false, false, [.ch '[', .ch '{', .ch '(', .ch '<']⟩) ⬝ (.star true (Re.space)) ⬝ (.set ⟨false, true, [.ch '1', .range 'a' 'z']⟩) ⬝ (.star true (Re.space)) ⬝ (.set ⟨false, false, [.ch '}', .ch ')', .ch '>', .ch ']']⟩), (Re.ch ':') ⬝ .eos]

/-- `refextract/references/regexs.py:861-908 get_reference_section_title_patterns` flags I
```
^\s*([\[\-\{\(])?\s*((\w|\d){1,5}([\.\-\,](\w|\d){1,5})?\s*[\.\-\}\)\]]\s*)?(?P<title>r\s*e\s*f\s*e\s*r\s*e\s*n\s*c\s*e\s*(\s*s\s*e\s*c\s*t\s*i\s*o\s*n\s*)?)\.?([\)\}\]])?($|\s*[\[\{\(\<]\s*[1a-z]\s*[\}\)\>\]]|\:$)
```
-/
def section_title_pattern_22 : Re :=
  .bos ⬝ (.star true (Re.space)) ⬝ (Re.opt (.set ⟨false, false, [.ch '[', .ch '-', .ch '{', .ch '(']⟩)) ⬝ (.star true (Re.space)) ⬝ (Re.opt ((Re.rep 1 5 (.set ⟨false, false, [.word, .digit]⟩)) ⬝ (Re.opt ((.set ⟨false, false, [.ch '.', .ch '-', .ch ',']⟩) ⬝ (Re.rep 1 5 (.set ⟨false, false, [.word, .digit]⟩)))) ⬝ (.star true (Re.space)) ⬝ (.set ⟨false, false, [.ch '.', .ch '-', .ch '}', .ch ')', .ch ']']⟩) ⬝ (.star true (Re.space)))) ⬝ (.group G.title ((Re.chI 'r') ⬝ (.star true (Re.space)) ⬝ (Re.chI 'e') ⬝ (.star true (Re.space)) ⬝ (Re.chI 'f') ⬝ (.star true (Re.space)) ⬝ (Re.chI 'e') ⬝ (.star true (Re.space)) ⬝ (Re.chI 'r') ⬝ (.star true (Re.space)) ⬝ (Re.chI 'e') ⬝ (.star true (Re.space)) ⬝ (Re.chI 'n') ⬝ (.star true (Re.space)) ⬝ (Re.chI 'c') ⬝ (.star true (Re.space)) ⬝ (Re.chI 'e') ⬝ (.star true (Re.space)) ⬝ Re.opt ((.star true (Re.space)) ⬝ (Re.chI 's') ⬝ (.star true (Re.space)) ⬝ (Re.chI 'e') ⬝ (.star true (Re.space)) ⬝ (Re.chI 'c') ⬝ (.star true (Re.space)) ⬝ (Re.chI 't') ⬝ (.star true (Re.space)) ⬝ (Re.chI 'i') ⬝ (.star true (Re.space)) ⬝ (Re.chI 'o') ⬝ (.star true (Re.space)) ⬝ (Re.chI 'n') ⬝ (.star true (Re.space))))) ⬝ (Re.opt (Re.ch '.')) ⬝ (Re.opt (.set ⟨false, false, [.ch ')', .ch '}', .ch ']']⟩)) ⬝ Re.alts [.eos, (.star true (Re.space)) ⬝ (.set ⟨false, false, [.ch '[', .ch '{', .ch '(', .ch '<']⟩) ⬝ (.star true (Re.space)) ⬝ (.set ⟨false, true, [.ch '1', .range 'a' 'z']⟩) ⬝ (.star true (Re.space)) ⬝ (.set ⟨false, false, [.ch '}', .ch ')', .ch '>', .ch ']']⟩), (Re.ch ':') ⬝ .eos]

/-- `refextract/references/regexs.py:861-908 get_reference_section_title_patterns` flags I
```
^(\d){1,3}\s*(?P<title>r\s*e\s*f\s*e\s*r\s*e\s*n\s*c\s*e\s*(\s*s\s*e\s*c\s*t\s*i\s*o\s*n\s*)?)\.?([\)\}\]])?($|\s*[\[\{\(\<]\s*[1a-z]\s*[\}\)\>\]]|\:$)
```
-/
def section_title_pattern_23 : Re :=
  .bos ⬝ (Re.rep 1 3 (Re.digit)) ⬝ (.star true (Re.space)) ⬝ (.group G.title ((Re.chI 'r') ⬝ (.star true (Re.space)) ⬝ (Re.chI 'e') ⬝ (.star true (Re.space)) ⬝ (Re.chI 'f') ⬝ (.star true (Re.space)) ⬝ (Re.chI 'e') ⬝ (.star true (Re.space)) ⬝ (Re.chI 'r') ⬝ (.star true (Re.space)) ⬝ (Re.chI 'e') ⬝ (.star true (Re.space)) ⬝ (Re.chI 'n') ⬝ (.star true (Re.space)) ⬝ (Re.chI 'c') ⬝ (.star true (Re.space)) ⬝ (Re.chI 'e') ⬝ (.star true (Re.space)) ⬝ Re.opt ((.star true (Re.space)) ⬝ (Re.chI 's') ⬝ (.star true (Re.space)) ⬝ (Re.chI 'e') ⬝ (.star true (Re.space)) ⬝ (Re.chI 'c') ⬝ (.star true (Re.space)) ⬝ (Re.chI 't') ⬝ (.star true (Re.space)) ⬝ (Re.chI 'i') ⬝ (.star true (Re.space)) ⬝ (Re.chI 'o') ⬝ (.star true (Re.space)) ⬝ (Re.chI 'n') ⬝ (.star true (Re.space))))) ⬝ (Re.opt (Re.ch '.')) ⬝ (Re.opt (.set ⟨false, false, [.ch ')', .ch '}', .ch ']']⟩)) ⬝ Re.alts [.eos, (.star true (Re.space)) ⬝ (.set ⟨false, false, [.ch '[', .ch '{', .ch '(', .ch '<']⟩) ⬝ (.star true (Re.space)) ⬝ (.set ⟨false, true, [.ch '1', .range 'a' 'z']⟩) ⬝ (.star true (Re.space)) ⬝ (.set ⟨false, false, [.ch '}', .ch ')', .ch '>', .ch ']']⟩), (Re.ch ':') ⬝ .eos]

/-- `refextract/references/regexs.py:861-908 get_reference_section_title_patterns` flags I
```
^\s*([\[\-\{\(])?\s*((\w|\d){1,5}([\.\-\,](\w|\d){1,5})?\s*[\.\-\}\)\]]\s*)?(?P<title>r\s*é\s*f\s*é\s*r\s*e\s*n\s*c\s*e\s*(\s*s\s*e\s*c\s*t\s*i\s*o\s*n\s*)?)\.?([\)\}\]])?($|\s*[\[\{\(\<]\s*[1a-z]\s*[\}\)\>\]]|\:$)
```
-/
def section_title_pattern_24 : Re :=
  .bos ⬝ (.star true (Re.space)) ⬝ (Re.opt (.set ⟨false, false, [.ch '[', .ch '-', .ch '{', .ch '(']⟩)) ⬝ (.star true (Re.space)) ⬝ (Re.opt ((Re.rep 1 5 (.set ⟨false, false, [.word, .digit]⟩)) ⬝ (Re.opt ((.set ⟨false, false, [.ch '.', .ch '-', .ch ',']⟩) ⬝ (Re.rep 1 5 (.set ⟨false, false, [.word, .digit]⟩)))) ⬝ (.star true (Re.space)) ⬝ (.set ⟨false, false, [.ch '.', .ch '-', .ch '}', .ch ')', .ch ']']⟩) ⬝ (.star true (Re.space)))) ⬝ (.group G.title ((Re.chI 'r') ⬝ (.star true (Re.space)) ⬝ (Re.chI '\u00e9') ⬝ (.star true (Re.space)) ⬝ (Re.chI 'f') ⬝ (.star true (Re.space)) ⬝ (Re.chI '\u00e9') ⬝ (.star true (Re.space)) ⬝ (Re.chI 'r') ⬝ (.star true (Re.space)) ⬝ (Re.chI 'e') ⬝ (.star true (Re.space)) ⬝ (Re.chI 'n') ⬝ (.star true (Re.space)) ⬝ (Re.chI 'c') ⬝ (.star true (Re.space)) ⬝ (Re.chI 'e') ⬝ (.star true (Re.space)) ⬝ Re.opt ((.star true (Re.space)) ⬝ (Re.chI 's') ⬝ (.star true (Re.space)) ⬝ (Re.chI 'e') ⬝ (.star true (Re.space)) ⬝ (Re.chI 'c') ⬝ (.star true (Re.space)) ⬝ (Re.chI 't') ⬝ (.star true (Re.space)) ⬝ (Re.chI 'i') ⬝ (.star true (Re.space)) ⬝ (Re.chI 'o') ⬝ (.star true (Re.space)) ⬝ (Re.chI 'n') ⬝ (.star true (Re.space))))) ⬝ (Re.opt (Re.ch '.')) ⬝ (Re.opt (.set ⟨false, false, [.ch ')', .ch '}', .ch ']']⟩)) ⬝ Re.alts [.eos, (.star true (Re.space)) ⬝ (.set ⟨false, false, [.ch '[', .ch '{', .ch '(', .ch '<']⟩) ⬝ (.star true (Re.space)) ⬝ (.set ⟨false, true, [.ch '1', .range 'a' 'z']⟩) ⬝ (.star true (Re.space)) ⬝ (.set ⟨false, false, [.ch '}', .ch ')', .ch '>', .ch ']']⟩), (Re.ch ':') ⬝ .eos]

/-- `refextract/references/regexs.py:861-908 get_reference_section_title_patterns` flags I
```
^(\d){1,3}\s*(?P<title>r\s*é\s*f\s*é\s*r\s*e\s*n\s*c\s*e\s*(\s*s\s*e\s*c\s*t\s*i\s*o\s*n\s*)?)\.?([\)\}\]])?($|\s*[\[\{\(\<]\s*[1a-z]\s*[\}\)\>\]]|\:$)
```
-/
def section_title_pattern_25 : Re :=
  .bos ⬝ (Re.rep 1 3 (Re.digit)) ⬝ (.star true (Re.space)) ⬝ (.group G.title ((Re.chI 'r') ⬝ (.star true (Re.space)) ⬝ (Re.chI '\u00e9') ⬝ (.star true (Re.space)) ⬝ (Re.chI 'f') ⬝ (.star true (Re.space)) ⬝ (Re.chI '\u00e9') ⬝ (.star true (Re.space)) ⬝ (Re.chI 'r') ⬝ (.star true (Re.space)) ⬝ (Re.chI 'e') ⬝ (.star true (Re.space)) ⬝ (Re.chI 'n') ⬝ (.star true (Re.space)) ⬝ (Re.chI 'c') ⬝ (.star true (Re.space)) ⬝ (Re.chI 'e') ⬝ (.star true (Re.space)) ⬝ Re.opt ((.star true (Re.space)) ⬝ (Re.chI 's') ⬝ (.star true (Re.space)) ⬝ (Re.chI 'e') ⬝ (.star true (Re.space)) ⬝ (Re.chI 'c') ⬝ (.star true (Re.space)) ⬝ (Re.chI 't') ⬝ (.star true (Re.space)) ⬝ (Re.chI 'i') ⬝ (.star true (Re.space)) ⬝ (Re.chI 'o') ⬝ (.star true (Re.space)) ⬝ (Re.chI 'n') ⬝ (.star true (Re.space))))) ⬝ (Re.opt (Re.ch '.')) ⬝ (Re.opt (.set ⟨false, false, [.ch ')', .ch '}', .ch ']']⟩)) ⬝ Re.alts [.eos, (.star true (Re.space)) ⬝ (.set ⟨false, false, [.ch '[', .ch '{', .ch '(', .ch '<']⟩) ⬝ (.star true (Re.space)) ⬝ (.set ⟨false, true, [.ch '1', .range 'a' 'z']⟩) ⬝ (.star true (Re.space)) ⬝ (.set ⟨false, false, [.ch '}', .ch ')', .ch '>', .ch ']']⟩), (Re.ch ':') ⬝ .eos]

/-- `refextract/references/regexs.py:861-908 get_reference_section_title_patterns` flags I
```
^\s*([\[\-\{\(])?\s*((\w|\d){1,5}([\.\-\,](\w|\d){1,5})?\s*[\.\-\}\)\]]\s*)?(?P<title>r\s*É\s*f\s*É\s*r\s*e\s*n\s*c\s*e\s*(\s*s\s*e\s*c\s*t\s*i\s*o\s*n\s*)?)\.?([\)\}\]])?($|\s*[\[\{\(\<]\s*[1a-z]\s*[\}\)\>\]]|\:$)
```
-/
def section_title_pattern_26 : Re :=
  .bos ⬝ (.star true (Re.space)) ⬝ (Re.opt (.set ⟨false, false, [.ch '[', .ch '-', .ch '{', .ch '(']⟩)) ⬝ (.star true (Re.space)) ⬝ (Re.opt ((Re.rep 1 5 (.set ⟨false, false, [.word, .digit]⟩)) ⬝ (Re.opt ((.set ⟨false, false, [.ch '.', .ch '-', .ch ',']⟩) ⬝ (Re.rep 1 5 (.set ⟨false, false, [.word, .digit]⟩)))) ⬝ (.star true (Re.space)) ⬝ (.set ⟨false, false, [.ch '.', .ch '-', .ch '}', .ch ')', .ch ']']⟩) ⬝ (.star true (Re.space)))) ⬝ (.group G.title ((Re.chI 'r') ⬝ (.star true (Re.space)) ⬝ (Re.chI '\u00c9') ⬝ (.star true (Re.space)) ⬝ (Re.chI 'f') ⬝ (.star true (Re.space)) ⬝ (Re.chI '\u00c9') ⬝ (.star true (Re.space)) ⬝ (Re.chI 'r') ⬝ (.star true (Re.space)) ⬝ (Re.chI 'e') ⬝ (.star true (Re.space)) ⬝ (Re.chI 'n') ⬝ (.star true (Re.space)) ⬝ (Re.chI 'c') ⬝ (.star true (Re.space)) ⬝ (Re.chI 'e') ⬝ (.star true (Re.space)) ⬝ Re.opt ((.star true (Re.space)) ⬝ (Re.chI 's') ⬝ (.star true (Re.space)) ⬝ (Re.chI 'e') ⬝ (.star true (Re.space)) ⬝ (Re.chI 'c') ⬝ (.star true (Re.space)) ⬝ (Re.chI 't') ⬝ (.star true (Re.space)) ⬝ (Re.chI 'i') ⬝ (.star true (Re.space)) ⬝ (Re.chI 'o') ⬝ (.star true (Re.space)) ⬝ (Re.chI 'n') ⬝ (.star true (Re.space))))) ⬝ (Re.opt (Re.ch '.')) ⬝ (Re.opt (.set ⟨false, false, [.ch ')', .ch '}', .ch ']']⟩)) ⬝ Re.alts [.eos, (.star true (Re.space)) ⬝ (.set ⟨false, false, [.ch '[', .ch '{', .ch '(', .ch '<']⟩) ⬝ (.star true (Re.space)) ⬝ (.set ⟨false, true, [.ch '1', .range 'a' 'z']⟩) ⬝ (.star true (Re.space)) ⬝ (.set ⟨false, false, [.ch '}', .ch ')', .ch '>', .ch ']']⟩), (Re.ch ':') ⬝ .eos]

/-- `refextract/references/regexs.py:861-908 get_reference_section_title_patterns` flags I
```
^(\d){1,3}\s*(?P<title>r\s*É\s*f\s*É\s*r\s*e\s*n\s*c\s*e\s*(\s*s\s*e\s*c\s*t\s*i\s*o\s*n\s*)?)\.?([\)\}\]])?($|\s*[\[\{\(\<]\s*[1a-z]\s*[\}\)\>\]]|\:$)
```
-/
def section_title_pattern_27 : Re :=
  .bos ⬝ (Re.rep 1 3 (Re.digit)) ⬝ (.star true (Re.space)) ⬝ (.group G.title ((Re.chI 'r') ⬝ (.star true (Re.space)) ⬝ (Re.chI '\u00c9') ⬝ (.star true (Re.space)) ⬝ (Re.chI 'f') ⬝ (.star true (Re.space)) ⬝ (Re.chI '\u00c9') ⬝ (.star true (Re.space)) ⬝ (Re.chI 'r') ⬝ (.star true (Re.space)) ⬝ (Re.chI 'e') ⬝ (.star true (Re.space)) ⬝ (Re.chI 'n') ⬝ (.star true (Re.space)) ⬝ (Re.chI 'c') ⬝ (.star true (Re.space)) ⬝ (Re.chI 'e') ⬝ (.star true (Re.space)) ⬝ Re.opt ((.star true (Re.space)) ⬝ (Re.chI 's') ⬝ (.star true (Re.space)) ⬝ (Re.chI 'e') ⬝ (.star true (Re.space)) ⬝ (Re.chI 'c') ⬝ (.star true (Re.space)) ⬝ (Re.chI 't') ⬝ (.star true (Re.space)) ⬝ (Re.chI 'i') ⬝ (.star true (Re.space)) ⬝ (Re.chI 'o') ⬝ (.star true (Re.space)) ⬝ (Re.chI 'n') ⬝ (.star true (Re.space))))) ⬝ (Re.opt (Re.ch '.')) ⬝ (Re.opt (.set ⟨false, false, [.ch ')', .ch '}', .ch ']']⟩)) ⬝ Re.alts [.eos, (.star true (Re.space)) ⬝ (.set ⟨false, false, [.ch '[', .ch '{', .ch '(', .ch '<']⟩) ⬝ (.star true (Re.space)) ⬝ (.set ⟨false, true, [.ch '1', .range 'a' 'z']⟩) ⬝ (.star true (Re.space)) ⬝ (.set ⟨false, false, [.ch '}', .ch ')', .ch '>', .ch ']']⟩), (Re.ch ':') ⬝ .eos]

/-- `refextract/references/regexs.py:861-908 get_reference_section_title_patterns` -/
def section_title_patterns : List Re :=
  [section_title_pattern_0,
   section_title_pattern_1,
   section_title_pattern_2,
   section_title_pattern_3,
   section_title_pattern_4,
   section_title_pattern_5,
   section_title_pattern_6,
   section_title_pattern_7,
   section_title_pattern_8,
   section_title_pattern_9,
   section_title_pattern_10,
   section_title_pattern_11,
   section_title_pattern_12,
   section_title_pattern_13,
   section_title_pattern_14,
   section_title_pattern_15,
   section_title_pattern_16,
   section_title_pattern_17,
   section_title_pattern_18,
   section_title_pattern_19,
   section_title_pattern_20,
   section_title_pattern_21,
   section_title_pattern_22,
   section_title_pattern_23,
   section_title_pattern_24,
   section_title_pattern_25,
   section_title_pattern_26,
   section_title_pattern_27]

/-- `refextract/references/regexs.py:981-1036 get_post_reference_section_title_patterns` flags I
```
^\s*([\{\(\<\[]?\s*(\w|\d)\s*[\)\}\>\.\-\]]?\s*)?a\s*p\s*p\s*e\s*n\s*d\s*i\s*x\s*(\s*\:\s*)?
```
-/
def post_title_pattern_0 : Re :=
  .bos ⬝ (.star true (Re.space)) ⬝ (Re.opt ((Re.opt (.set ⟨false, false, [.ch '{', .ch '(', .ch '<', .ch '[']⟩)) ⬝ (.star true (Re.space)) ⬝ (.set ⟨false, false, [.word, .digit]⟩) ⬝ (.star true (Re.space)) ⬝ (Re.opt (.set ⟨false, false, [.ch ')', .ch '}', .ch '>', .ch '.', .ch '-', .ch ']']⟩)) ⬝ (.star true (Re.space)))) ⬝ (Re.chI 'a') ⬝ (.star true (Re.space)) ⬝ (Re.chI 'p') ⬝ (.star true (Re.space)) ⬝ (Re.chI 'p') ⬝ (.star true (Re.space)) ⬝ (Re.chI 'e') ⬝ (.star true (Re.space)) ⬝ (Re.chI 'n') ⬝ (.star true (Re.space)) ⬝ (Re.chI 'd') ⬝ (.star true (Re.space)) ⬝ (Re.chI 'i') ⬝ (.star true (Re.space)) ⬝ (Re.chI 'x') ⬝ (.star true (Re.space)) ⬝ Re.opt ((.star true (Re.space)) ⬝ (Re.ch ':') ⬝ (.star true (Re.space)))

/-- `refextract/references/regexs.py:981-1036 get_post_reference_section_title_patterns` flags I
```
^\s*([\{\(\<\[]?\s*(\w|\d)\s*[\)\}\>\.\-\]]?\s*)?a\s*p\s*p\s*e\s*n\s*d\s*i\s*c\s*e\s*s\s*(\s*\:\s*)?
```
-/
def post_title_pattern_1 : Re :=
  .bos ⬝ (.star true (Re.space)) ⬝ (Re.opt ((Re.opt (.set ⟨false, false, [.ch '{', .ch '(', .ch '<', .ch '[']⟩)) ⬝ (.star true (Re.space)) ⬝ (.set ⟨false, false, [.word, .digit]⟩) ⬝ (.star true (Re.space)) ⬝ (Re.opt (.set ⟨false, false, [.ch ')', .ch '}', .ch '>', .ch '.', .ch '-', .ch ']']⟩)) ⬝ (.star true (Re.space)))) ⬝ (Re.chI 'a') ⬝ (.star true (Re.space)) ⬝ (Re.chI 'p') ⬝ (.star true (Re.space)) ⬝ (Re.chI 'p') ⬝ (.star true (Re.space)) ⬝ (Re.chI 'e') ⬝ (.star true (Re.space)) ⬝ (Re.chI 'n') ⬝ (.star true (Re.space)) ⬝ (Re.chI 'd') ⬝ (.star true (Re.space)) ⬝ (Re.chI 'i') ⬝ (.star true (Re.space)) ⬝ (Re.chI 'c') ⬝ (.star true (Re.space)) ⬝ (Re.chI 'e') ⬝ (.star true (Re.space)) ⬝ (Re.chI 's') ⬝ (.star true (Re.space)) ⬝ Re.opt ((.star true (Re.space)) ⬝ (Re.ch ':') ⬝ (.star true (Re.space)))

/-- `refextract/references/regexs.py:981-1036 get_post_reference_section_title_patterns` flags I
```
^\s*([\{\(\<\[]?\s*(\w|\d)\s*[\)\}\>\.\-\]]?\s*)?a\s*c\s*k\s*n\s*o\s*w\s*l\s*e\s*d\s*g\s*e\s*m\s*e\s*n\s*t\s*s?(\s*\:\s*)?
```
-/
def post_title_pattern_2 : Re :=
  .bos ⬝ (.star true (Re.space)) ⬝ (Re.opt ((Re.opt (.set ⟨false, false, [.ch '{', .ch '(', .ch '<', .ch '[']⟩)) ⬝ (.star true (Re.space)) ⬝ (.set ⟨false, false, [.word, .digit]⟩) ⬝ (.star true (Re.space)) ⬝ (Re.opt (.set ⟨false, false, [.ch ')', .ch '}', .ch '>', .ch '.', .ch '-', .ch ']']⟩)) ⬝ (.star true (Re.space)))) ⬝ (Re.chI 'a') ⬝ (.star true (Re.space)) ⬝ (Re.chI 'c') ⬝ (.star true (Re.space)) ⬝ (Re.chI 'k') ⬝ (.star true (Re.space)) ⬝ (Re.chI 'n') ⬝ (.star true (Re.space)) ⬝ (Re.chI 'o') ⬝ (.star true (Re.space)) ⬝ (Re.chI 'w') ⬝ (.star true (Re.space)) ⬝ (Re.chI 'l') ⬝ (.star true (Re.space)) ⬝ (Re.chI 'e') ⬝ (.star true (Re.space)) ⬝ (Re.chI 'd') ⬝ (.star true (Re.space)) ⬝ (Re.chI 'g') ⬝ (.star true (Re.space)) ⬝ (Re.chI 'e') ⬝ (.star true (Re.space)) ⬝ (Re.chI 'm') ⬝ (.star true (Re.space)) ⬝ (Re.chI 'e') ⬝ (.star true (Re.space)) ⬝ (Re.chI 'n') ⬝ (.star true (Re.space)) ⬝ (Re.chI 't') ⬝ (.star true (Re.space)) ⬝ (Re.opt (Re.chI 's')) ⬝ Re.opt ((.star true (Re.space)) ⬝ (Re.ch ':') ⬝ (.star true (Re.space)))

/-- `refextract/references/regexs.py:981-1036 get_post_reference_section_title_patterns` flags I
```
^\s*([\{\(\<\[]?\s*(\w|\d)\s*[\)\}\>\.\-\]]?\s*)?a\s*c\s*k\s*n\s*o\s*w\s*l\s*e\s*d\s*g\s*m\s*e\s*n\s*t\s*s?(\s*\:\s*)?
```
-/
def post_title_pattern_3 : Re :=
  .bos ⬝ (.star true (Re.space)) ⬝ (Re.opt ((Re.opt (.set ⟨false, false, [.ch '{', .ch '(', .ch '<', .ch '[']⟩)) ⬝ (.star true (Re.space)) ⬝ (.set ⟨false, false, [.word, .digit]⟩) ⬝ (.star true (Re.space)) ⬝ (Re.opt (.set ⟨false, false, [.ch ')', .ch '}', .ch '>', .ch '.', .ch '-', .ch ']']⟩)) ⬝ (.star true (Re.space)))) ⬝ (Re.chI 'a') ⬝ (.star true (Re.space)) ⬝ (Re.chI 'c') ⬝ (.star true (Re.space)) ⬝ (Re.chI 'k') ⬝ (.star true (Re.space)) ⬝ (Re.chI 'n') ⬝ (.star true (Re.space)) ⬝ (Re.chI 'o') ⬝ (.star true (Re.space)) ⬝ (Re.chI 'w') ⬝ (.star true (Re.space)) ⬝ (Re.chI 'l') ⬝ (.star true (Re.space)) ⬝ (Re.chI 'e') ⬝ (.star true (Re.space)) ⬝ (Re.chI 'd') ⬝ (.star true (Re.space)) ⬝ (Re.chI 'g') ⬝ (.star true (Re.space)) ⬝ (Re.chI 'm') ⬝ (.star true (Re.space)) ⬝ (Re.chI 'e') ⬝ (.star true (Re.space)) ⬝ (Re.chI 'n') ⬝ (.star true (Re.space)) ⬝ (Re.chI 't') ⬝ (.star true (Re.space)) ⬝ (Re.opt (Re.chI 's')) ⬝ Re.opt ((.star true (Re.space)) ⬝ (Re.ch ':') ⬝ (.star true (Re.space)))

/-- `refextract/references/regexs.py:981-1036 get_post_reference_section_title_patterns` flags I
```
^\s*([\{\(\<\[]?\s*(\w|\d)\s*[\)\}\>\.\-\]]?\s*)?t\s*a\s*b\s*l\s*e\s*\w?s?\d?(\s*\:\s*)?
```
-/
def post_title_pattern_4 : Re :=
  .bos ⬝ (.star true (Re.space)) ⬝ (Re.opt ((Re.opt (.set ⟨false, false, [.ch '{', .ch '(', .ch '<', .ch '[']⟩)) ⬝ (.star true (Re.space)) ⬝ (.set ⟨false, false, [.word, .digit]⟩) ⬝ (.star true (Re.space)) ⬝ (Re.opt (.set ⟨false, false, [.ch ')', .ch '}', .ch '>', .ch '.', .ch '-', .ch ']']⟩)) ⬝ (.star true (Re.space)))) ⬝ (Re.chI 't') ⬝ (.star true (Re.space)) ⬝ (Re.chI 'a') ⬝ (.star true (Re.space)) ⬝ (Re.chI 'b') ⬝ (.star true (Re.space)) ⬝ (Re.chI 'l') ⬝ (.star true (Re.space)) ⬝ (Re.chI 'e') ⬝ (.star true (Re.space)) ⬝ (Re.opt (Re.word)) ⬝ (Re.opt (Re.chI 's')) ⬝ (Re.opt (Re.digit)) ⬝ Re.opt ((.star true (Re.space)) ⬝ (Re.ch ':') ⬝ (.star true (Re.space)))

/-- `refextract/references/regexs.py:981-1036 get_post_reference_section_title_patterns` flags I
```
^\s*([\{\(\<\[]?\s*(\w|\d)\s*[\)\}\>\.\-\]]?\s*)?f\s*i\s*g\s*u\s*r\s*e\s*s?(\s*\:\s*)?
```
-/
def post_title_pattern_5 : Re :=
  .bos ⬝ (.star true (Re.space)) ⬝ (Re.opt ((Re.opt (.set ⟨false, false, [.ch '{', .ch '(', .ch '<', .ch '[']⟩)) ⬝ (.star true (Re.space)) ⬝ (.set ⟨false, false, [.word, .digit]⟩) ⬝ (.star true (Re.space)) ⬝ (Re.opt (.set ⟨false, false, [.ch ')', .ch '}', .ch '>', .ch '.', .ch '-', .ch ']']⟩)) ⬝ (.star true (Re.space)))) ⬝ (Re.chI 'f') ⬝ (.star true (Re.space)) ⬝ (Re.chI 'i') ⬝ (.star true (Re.space)) ⬝ (Re.chI 'g') ⬝ (.star true (Re.space)) ⬝ (Re.chI 'u') ⬝ (.star true (Re.space)) ⬝ (Re.chI 'r') ⬝ (.star true (Re.space)) ⬝ (Re.chI 'e') ⬝ (.star true (Re.space)) ⬝ (Re.opt (Re.chI 's')) ⬝ Re.opt ((.star true (Re.space)) ⬝ (Re.ch ':') ⬝ (.star true (Re.space)))

/-- `refextract/references/regexs.py:981-1036 get_post_reference_section_title_patterns` flags I
```
^\s*([\{\(\<\[]?\s*(\w|\d)\s*[\)\}\>\.\-\]]?\s*)?l\s*i\s*s\s*t\s* o\s*f\s* f\s*i\s*g\s*u\s*r\s*e\s*s?(\s*\:\s*)?
```
-/
def post_title_pattern_6 : Re :=
  .bos ⬝ (.star true (Re.space)) ⬝ (Re.opt ((Re.opt (.set ⟨false, false, [.ch '{', .ch '(', .ch '<', .ch '[']⟩)) ⬝ (.star true (Re.space)) ⬝ (.set ⟨false, false, [.word, .digit]⟩) ⬝ (.star true (Re.space)) ⬝ (Re.opt (.set ⟨false, false, [.ch ')', .ch '}', .ch '>', .ch '.', .ch '-', .ch ']']⟩)) ⬝ (.star true (Re.space)))) ⬝ (Re.chI 'l') ⬝ (.star true (Re.space)) ⬝ (Re.chI 'i') ⬝ (.star true (Re.space)) ⬝ (Re.chI 's') ⬝ (.star true (Re.space)) ⬝ (Re.chI 't') ⬝ (.star true (Re.space)) ⬝ (Re.strI (py! " o")) ⬝ (.star true (Re.space)) ⬝ (Re.chI 'f') ⬝ (.star true (Re.space)) ⬝ (Re.strI (py! " f")) ⬝ (.star true (Re.space)) ⬝ (Re.chI 'i') ⬝ (.star true (Re.space)) ⬝ (Re.chI 'g') ⬝ (.star true (Re.space)) ⬝ (Re.chI 'u') ⬝ (.star true (Re.space)) ⬝ (Re.chI 'r') ⬝ (.star true (Re.space)) ⬝ (Re.chI 'e') ⬝ (.star true (Re.space)) ⬝ (Re.opt (Re.chI 's')) ⬝ Re.opt ((.star true (Re.space)) ⬝ (Re.ch ':') ⬝ (.star true (Re.space)))

/-- `refextract/references/regexs.py:981-1036 get_post_reference_section_title_patterns` flags I
```
^\s*([\{\(\<\[]?\s*(\w|\d)\s*[\)\}\>\.\-\]]?\s*)?a\s*n\s*n\s*e\s*x\s*s?(\s*\:\s*)?
```
-/
def post_title_pattern_7 : Re :=
  .bos ⬝ (.star true (Re.space)) ⬝ (Re.opt ((Re.opt (.set ⟨false, false, [.ch '{', .ch '(', .ch '<', .ch '[']⟩)) ⬝ (.star true (Re.space)) ⬝ (.set ⟨false, false, [.word, .digit]⟩) ⬝ (.star true (Re.space)) ⬝ (Re.opt (.set ⟨false, false, [.ch ')', .ch '}', .ch '>', .ch '.', .ch '-', .ch ']']⟩)) ⬝ (.star true (Re.space)))) ⬝ (Re.chI 'a') ⬝ (.star true (Re.space)) ⬝ (Re.chI 'n') ⬝ (.star true (Re.space)) ⬝ (Re.chI 'n') ⬝ (.star true (Re.space)) ⬝ (Re.chI 'e') ⬝ (.star true (Re.space)) ⬝ (Re.chI 'x') ⬝ (.star true (Re.space)) ⬝ (Re.opt (Re.chI 's')) ⬝ Re.opt ((.star true (Re.space)) ⬝ (Re.ch ':') ⬝ (.star true (Re.space)))

/-- `refextract/references/regexs.py:981-1036 get_post_reference_section_title_patterns` flags I
```
^\s*([\{\(\<\[]?\s*(\w|\d)\s*[\)\}\>\.\-\]]?\s*)?d\s*i\s*s\s*c\s*u\s*s\s*s\s*i\s*o\s*n\s*s?(\s*\:\s*)?
```
-/
def post_title_pattern_8 : Re :=
  .bos ⬝ (.star true (Re.space)) ⬝ (Re.opt ((Re.opt (.set ⟨false, false, [.ch '{', .ch '(', .ch '<', .ch '[']⟩)) ⬝ (.star true (Re.space)) ⬝ (.set ⟨false, false, [.word, .digit]⟩) ⬝ (.star true (Re.space)) ⬝ (Re.opt (.set ⟨false, false, [.ch ')', .ch '}', .ch '>', .ch '.', .ch '-', .ch ']']⟩)) ⬝ (.star true (Re.space)))) ⬝ (Re.chI 'd') ⬝ (.star true (Re.space)) ⬝ (Re.chI 'i') ⬝ (.star true (Re.space)) ⬝ (Re.chI 's') ⬝ (.star true (Re.space)) ⬝ (Re.chI 'c') ⬝ (.star true (Re.space)) ⬝ (Re.chI 'u') ⬝ (.star true (Re.space)) ⬝ (Re.chI 's') ⬝ (.star true (Re.space)) ⬝ (Re.chI 's') ⬝ (.star true (Re.space)) ⬝ (Re.chI 'i') ⬝ (.star true (Re.space)) ⬝ (Re.chI 'o') ⬝ (.star true (Re.space)) ⬝ (Re.chI 'n') ⬝ (.star true (Re.space)) ⬝ (Re.opt (Re.chI 's')) ⬝ Re.opt ((.star true (Re.space)) ⬝ (Re.ch ':') ⬝ (.star true (Re.space)))

/-- `refextract/references/regexs.py:981-1036 get_post_reference_section_title_patterns` flags I
```
^\s*([\{\(\<\[]?\s*(\w|\d)\s*[\)\}\>\.\-\]]?\s*)?r\s*e\s*m\s*e\s*r\s*c\s*i\s*e\s*s?(\s*\:\s*)?
```
-/
def post_title_pattern_9 : Re :=
  .bos ⬝ (.star true (Re.space)) ⬝ (Re.opt ((Re.opt (.set ⟨false, false, [.ch '{', .ch '(', .ch '<', .ch '[']⟩)) ⬝ (.star true (Re.space)) ⬝ (.set ⟨false, false, [.word, .digit]⟩) ⬝ (.star true (Re.space)) ⬝ (Re.opt (.set ⟨false, false, [.ch ')', .ch '}', .ch '>', .ch '.', .ch '-', .ch ']']⟩)) ⬝ (.star true (Re.space)))) ⬝ (Re.chI 'r') ⬝ (.star true (Re.space)) ⬝ (Re.chI 'e') ⬝ (.star true (Re.space)) ⬝ (Re.chI 'm') ⬝ (.star true (Re.space)) ⬝ (Re.chI 'e') ⬝ (.star true (Re.space)) ⬝ (Re.chI 'r') ⬝ (.star true (Re.space)) ⬝ (Re.chI 'c') ⬝ (.star true (Re.space)) ⬝ (Re.chI 'i') ⬝ (.star true (Re.space)) ⬝ (Re.chI 'e') ⬝ (.star true (Re.space)) ⬝ (Re.opt (Re.chI 's')) ⬝ Re.opt ((.star true (Re.space)) ⬝ (Re.ch ':') ⬝ (.star true (Re.space)))

/-- `refextract/references/regexs.py:981-1036 get_post_reference_section_title_patterns` flags I
```
^\s*([\{\(\<\[]?\s*(\w|\d)\s*[\)\}\>\.\-\]]?\s*)?i\s*n\s*d\s*e\s*x\s*s?(\s*\:\s*)?
```
-/
def post_title_pattern_10 : Re :=
  .bos ⬝ (.star true (Re.space)) ⬝ (Re.opt ((Re.opt (.set ⟨false, false, [.ch '{', .ch '(', .ch '<', .ch '[']⟩)) ⬝ (.star true (Re.space)) ⬝ (.set ⟨false, false, [.word, .digit]⟩) ⬝ (.star true (Re.space)) ⬝ (Re.opt (.set ⟨false, false, [.ch ')', .ch '}', .ch '>', .ch '.', .ch '-', .ch ']']⟩)) ⬝ (.star true (Re.space)))) ⬝ (Re.chI 'i') ⬝ (.star true (Re.space)) ⬝ (Re.chI 'n') ⬝ (.star true (Re.space)) ⬝ (Re.chI 'd') ⬝ (.star true (Re.space)) ⬝ (Re.chI 'e') ⬝ (.star true (Re.space)) ⬝ (Re.chI 'x') ⬝ (.star true (Re.space)) ⬝ (Re.opt (Re.chI 's')) ⬝ Re.opt ((.star true (Re.space)) ⬝ (Re.ch ':') ⬝ (.star true (Re.space)))

/-- `refextract/references/regexs.py:981-1036 get_post_reference_section_title_patterns` flags I
```
^\s*([\{\(\<\[]?\s*(\w|\d)\s*[\)\}\>\.\-\]]?\s*)?s\s*u\s*m\s*m\s*a\s*r\s*y\s*s?(\s*\:\s*)?
```
-/
def post_title_pattern_11 : Re :=
  .bos ⬝ (.star true (Re.space)) ⬝ (Re.opt ((Re.opt (.set ⟨false, false, [.ch '{', .ch '(', .ch '<', .ch '[']⟩)) ⬝ (.star true (Re.space)) ⬝ (.set ⟨false, false, [.word, .digit]⟩) ⬝ (.star true (Re.space)) ⬝ (Re.opt (.set ⟨false, false, [.ch ')', .ch '}', .ch '>', .ch '.', .ch '-', .ch ']']⟩)) ⬝ (.star true (Re.space)))) ⬝ (Re.chI 's') ⬝ (.star true (Re.space)) ⬝ (Re.chI 'u') ⬝ (.star true (Re.space)) ⬝ (Re.chI 'm') ⬝ (.star true (Re.space)) ⬝ (Re.chI 'm') ⬝ (.star true (Re.space)) ⬝ (Re.chI 'a') ⬝ (.star true (Re.space)) ⬝ (Re.chI 'r') ⬝ (.star true (Re.space)) ⬝ (Re.chI 'y') ⬝ (.star true (Re.space)) ⬝ (Re.opt (Re.chI 's')) ⬝ Re.opt ((.star true (Re.space)) ⬝ (Re.ch ':') ⬝ (.star true (Re.space)))

/-- `refextract/references/regexs.py:981-1036 get_post_reference_section_title_patterns` flags I
```
^\s*f\s*i\s*g\s*u\s*r\s*e\s*(\d+|\w\b|i{1,3}v?|vi{0,3})[\.\,]{0,2}\b
```
-/
def post_title_pattern_12 : Re :=
  .bos ⬝ (.star true (Re.space)) ⬝ (Re.chI 'f') ⬝ (.star true (Re.space)) ⬝ (Re.chI 'i') ⬝ (.star true (Re.space)) ⬝ (Re.chI 'g') ⬝ (.star true (Re.space)) ⬝ (Re.chI 'u') ⬝ (.star true (Re.space)) ⬝ (Re.chI 'r') ⬝ (.star true (Re.space)) ⬝ (Re.chI 'e') ⬝ (.star true (Re.space)) ⬝ (Re.alts [Re.plus (Re.digit), Re.word ⬝ .wordb, (Re.rep 1 3 (Re.chI 'i')) ⬝ (Re.opt (Re.chI 'v')), (Re.chI 'v') ⬝ (Re.rep 0 3 (Re.chI 'i'))]) ⬝ (Re.rep 0 2 (.set ⟨false, false, [.ch '.', .ch ',']⟩)) ⬝ .wordb

/-- `refextract/references/regexs.py:981-1036 get_post_reference_section_title_patterns` flags I
```
^\s*f\s*i\s*g\s*\.\s*(\d+|\w\b|i{1,3}v?|vi{0,3})[\.\,]{0,2}\b
```
-/
def post_title_pattern_13 : Re :=
  .bos ⬝ (.star true (Re.space)) ⬝ (Re.chI 'f') ⬝ (.star true (Re.space)) ⬝ (Re.chI 'i') ⬝ (.star true (Re.space)) ⬝ (Re.chI 'g') ⬝ (.star true (Re.space)) ⬝ (Re.ch '.') ⬝ (.star true (Re.space)) ⬝ (Re.alts [Re.plus (Re.digit), Re.word ⬝ .wordb, (Re.rep 1 3 (Re.chI 'i')) ⬝ (Re.opt (Re.chI 'v')), (Re.chI 'v') ⬝ (Re.rep 0 3 (Re.chI 'i'))]) ⬝ (Re.rep 0 2 (.set ⟨false, false, [.ch '.', .ch ',']⟩)) ⬝ .wordb

/-- `refextract/references/regexs.py:981-1036 get_post_reference_section_title_patterns` flags I
```
^\s*f\s*i\s*g\s*\.?\s*\d\w?\b
```
-/
def post_title_pattern_14 : Re :=
  .bos ⬝ (.star true (Re.space)) ⬝ (Re.chI 'f') ⬝ (.star true (Re.space)) ⬝ (Re.chI 'i') ⬝ (.star true (Re.space)) ⬝ (Re.chI 'g') ⬝ (.star true (Re.space)) ⬝ (Re.opt (Re.ch '.')) ⬝ (.star true (Re.space)) ⬝ Re.digit ⬝ (Re.opt (Re.word)) ⬝ .wordb

/-- `refextract/references/regexs.py:981-1036 get_post_reference_section_title_patterns` flags I
```
^\s*t\s*a\s*b\s*l\s*e\s*(\d+|\w\b|i{1,3}v?|vi{0,3})[\.\,]{0,2}\b
```
-/
def post_title_pattern_15 : Re :=
  .bos ⬝ (.star true (Re.space)) ⬝ (Re.chI 't') ⬝ (.star true (Re.space)) ⬝ (Re.chI 'a') ⬝ (.star true (Re.space)) ⬝ (Re.chI 'b') ⬝ (.star true (Re.space)) ⬝ (Re.chI 'l') ⬝ (.star true (Re.space)) ⬝ (Re.chI 'e') ⬝ (.star true (Re.space)) ⬝ (Re.alts [Re.plus (Re.digit), Re.word ⬝ .wordb, (Re.rep 1 3 (Re.chI 'i')) ⬝ (Re.opt (Re.chI 'v')), (Re.chI 'v') ⬝ (Re.rep 0 3 (Re.chI 'i'))]) ⬝ (Re.rep 0 2 (.set ⟨false, false, [.ch '.', .ch ',']⟩)) ⬝ .wordb

/-- `refextract/references/regexs.py:981-1036 get_post_reference_section_title_patterns` flags I
```
^\s*t\s*a\s*b\s*\.\s*(\d+|\w\b|i{1,3}v?|vi{0,3})[\.\,]{0,2}\b
```
-/
def post_title_pattern_16 : Re :=
  .bos ⬝ (.star true (Re.space)) ⬝ (Re.chI 't') ⬝ (.star true (Re.space)) ⬝ (Re.chI 'a') ⬝ (.star true (Re.space)) ⬝ (Re.chI 'b') ⬝ (.star true (Re.space)) ⬝ (Re.ch '.') ⬝ (.star true (Re.space)) ⬝ (Re.alts [Re.plus (Re.digit), Re.word ⬝ .wordb, (Re.rep 1 3 (Re.chI 'i')) ⬝ (Re.opt (Re.chI 'v')), (Re.chI 'v') ⬝ (Re.rep 0 3 (Re.chI 'i'))]) ⬝ (Re.rep 0 2 (.set ⟨false, false, [.ch '.', .ch ',']⟩)) ⬝ .wordb

/-- `refextract/references/regexs.py:981-1036 get_post_reference_section_title_patterns` flags I
```
^\s*t\s*a\s*b\s*\.?\s*\d\w?\b
```
-/
def post_title_pattern_17 : Re :=
  .bos ⬝ (.star true (Re.space)) ⬝ (Re.chI 't') ⬝ (.star true (Re.space)) ⬝ (Re.chI 'a') ⬝ (.star true (Re.space)) ⬝ (Re.chI 'b') ⬝ (.star true (Re.space)) ⬝ (Re.opt (Re.ch '.')) ⬝ (.star true (Re.space)) ⬝ Re.digit ⬝ (Re.opt (Re.word)) ⬝ .wordb

/-- `refextract/references/regexs.py:981-1036 get_post_reference_section_title_patterns` flags I
```
^\s*[LVIX]\.?\s*[Cc]onclusion[\w\s]*$
```
-/
def post_title_pattern_18 : Re :=
  .bos ⬝ (.star true (Re.space)) ⬝ (.set ⟨false, true, [.ch 'L', .ch 'V', .ch 'I', .ch 'X']⟩) ⬝ (Re.opt (Re.ch '.')) ⬝ (.star true (Re.space)) ⬝ (.set ⟨false, true, [.ch 'C', .ch 'c']⟩) ⬝ (Re.strI (py! "onclusion")) ⬝ (.star true (.set ⟨false, false, [.word, .space]⟩)) ⬝ .eos

/-- `refextract/references/regexs.py:981-1036 get_post_reference_section_title_patterns` flags I
```
^\s*Appendix\s[A-Z]\s*\:\s*[a-zA-Z]+\s*
```
-/
def post_title_pattern_19 : Re :=
  .bos ⬝ (.star true (Re.space)) ⬝ (Re.strI (py! "Appendix")) ⬝ Re.space ⬝ (.set ⟨false, true, [.range 'A' 'Z']⟩) ⬝ (.star true (Re.space)) ⬝ (Re.ch ':') ⬝ (.star true (Re.space)) ⬝ (Re.plus (.set ⟨false, true, [.range 'a' 'z', .range 'A' 'Z']⟩)) ⬝ (.star true (Re.space))

/-- `refextract/references/regexs.py:981-1036 get_post_reference_section_title_patterns` -/
def post_title_patterns : List Re :=
  [post_title_pattern_0,
   post_title_pattern_1,
   post_title_pattern_2,
   post_title_pattern_3,
   post_title_pattern_4,
   post_title_pattern_5,
   post_title_pattern_6,
   post_title_pattern_7,
   post_title_pattern_8,
   post_title_pattern_9,
   post_title_pattern_10,
   post_title_pattern_11,
   post_title_pattern_12,
   post_title_pattern_13,
   post_title_pattern_14,
   post_title_pattern_15,
   post_title_pattern_16,
   post_title_pattern_17,
   post_title_pattern_18,
   post_title_pattern_19]

/-- `refextract/references/regexs.py:1039-1067 get_post_reference_section_keyword_patterns` flags I
```
(p\s*r\s*e\s*p\s*a\s*r\s*e\s*d\s*|c\s*r\s*e\s*a\s*t\s*e\s*d\s*).*(AAS\s*)?\sLATEX
```
-/
def post_keyword_pattern_0 : Re :=
  (Re.alts [(Re.chI 'p') ⬝ (.star true (Re.space)) ⬝ (Re.chI 'r') ⬝ (.star true (Re.space)) ⬝ (Re.chI 'e') ⬝ (.star true (Re.space)) ⬝ (Re.chI 'p') ⬝ (.star true (Re.space)) ⬝ (Re.chI 'a') ⬝ (.star true (Re.space)) ⬝ (Re.chI 'r') ⬝ (.star true (Re.space)) ⬝ (Re.chI 'e') ⬝ (.star true (Re.space)) ⬝ (Re.chI 'd') ⬝ (.star true (Re.space)), (Re.chI 'c') ⬝ (.star true (Re.space)) ⬝ (Re.chI 'r') ⬝ (.star true (Re.space)) ⬝ (Re.chI 'e') ⬝ (.star true (Re.space)) ⬝ (Re.chI 'a') ⬝ (.star true (Re.space)) ⬝ (Re.chI 't') ⬝ (.star true (Re.space)) ⬝ (Re.chI 'e') ⬝ (.star true (Re.space)) ⬝ (Re.chI 'd') ⬝ (.star true (Re.space))]) ⬝ (.star true (Re.any)) ⬝ (Re.opt ((Re.strI (py! "AAS")) ⬝ (.star true (Re.space)))) ⬝ Re.space ⬝ (Re.strI (py! "LATEX"))

/-- `refextract/references/regexs.py:1039-1067 get_post_reference_section_keyword_patterns` flags I
```
AAS\s+?LATEX\s+?m\s*a\s*c\s*r\s*o\s*s\s*v
```
-/
def post_keyword_pattern_1 : Re :=
  (Re.strI (py! "AAS")) ⬝ (Re.plusL (Re.space)) ⬝ (Re.strI (py! "LATEX")) ⬝ (Re.plusL (Re.space)) ⬝ (Re.chI 'm') ⬝ (.star true (Re.space)) ⬝ (Re.chI 'a') ⬝ (.star true (Re.space)) ⬝ (Re.chI 'c') ⬝ (.star true (Re.space)) ⬝ (Re.chI 'r') ⬝ (.star true (Re.space)) ⬝ (Re.chI 'o') ⬝ (.star true (Re.space)) ⬝ (Re.chI 's') ⬝ (.star true (Re.space)) ⬝ (Re.chI 'v')

/-- `refextract/references/regexs.py:1039-1067 get_post_reference_section_keyword_patterns` flags I
```
^\s*T\s*h\s*i\s*s\s* p\s*a\s*p\s*e\s*r\s* h\s*a\s*s\s* b\s*e\s*e\s*n\s* p\s*r\s*o\s*d\s*u\s*c\s*e\s*d\s* u\s*s\s*i\s*n\s*g\s*
```
-/
def post_keyword_pattern_2 : Re :=
  .bos ⬝ (.star true (Re.space)) ⬝ (Re.chI 'T') ⬝ (.star true (Re.space)) ⬝ (Re.chI 'h') ⬝ (.star true (Re.space)) ⬝ (Re.chI 'i') ⬝ (.star true (Re.space)) ⬝ (Re.chI 's') ⬝ (.star true (Re.space)) ⬝ (Re.strI (py! " p")) ⬝ (.star true (Re.space)) ⬝ (Re.chI 'a') ⬝ (.star true (Re.space)) ⬝ (Re.chI 'p') ⬝ (.star true (Re.space)) ⬝ (Re.chI 'e') ⬝ (.star true (Re.space)) ⬝ (Re.chI 'r') ⬝ (.star true (Re.space)) ⬝ (Re.strI (py! " h")) ⬝ (.star true (Re.space)) ⬝ (Re.chI 'a') ⬝ (.star true (Re.space)) ⬝ (Re.chI 's') ⬝ (.star true (Re.space)) ⬝ (Re.strI (py! " b")) ⬝ (.star true (Re.space)) ⬝ (Re.chI 'e') ⬝ (.star true (Re.space)) ⬝ (Re.chI 'e') ⬝ (.star true (Re.space)) ⬝ (Re.chI 'n') ⬝ (.star true (Re.space)) ⬝ (Re.strI (py! " p")) ⬝ (.star true (Re.space)) ⬝ (Re.chI 'r') ⬝ (.star true (Re.space)) ⬝ (Re.chI 'o') ⬝ (.star true (Re.space)) ⬝ (Re.chI 'd') ⬝ (.star true (Re.space)) ⬝ (Re.chI 'u') ⬝ (.star true (Re.space)) ⬝ (Re.chI 'c') ⬝ (.star true (Re.space)) ⬝ (Re.chI 'e') ⬝ (.star true (Re.space)) ⬝ (Re.chI 'd') ⬝ (.star true (Re.space)) ⬝ (Re.strI (py! " u")) ⬝ (.star true (Re.space)) ⬝ (Re.chI 's') ⬝ (.star true (Re.space)) ⬝ (Re.chI 'i') ⬝ (.star true (Re.space)) ⬝ (Re.chI 'n') ⬝ (.star true (Re.space)) ⬝ (Re.chI 'g') ⬝ (.star true (Re.space))

/-- `refextract/references/regexs.py:1039-1067 get_post_reference_section_keyword_patterns` flags I
```
^\s*T\s*h\s*i\s*s\s* a\s*r\s*t\s*i\s*c\s*l\s*e\s* w\s*a\s*s\s* p\s*r\s*o\s*c\s*e\s*s\s*s\s*e\s*d\s* b\s*y\s* t\s*h\s*e\s* a\s*u\s*t\s*h\s*o\s*r\s* u\s*s\s*i\s*n\s*g\s* S\s*p\s*r\s*i\s*n\s*g\s*e\s*r\s*-\s*V\s*e\s*r\s*l\s*a\s*g\s* LATEX
```
-/
def post_keyword_pattern_3 : Re :=
  .bos ⬝ (.star true (Re.space)) ⬝ (Re.chI 'T') ⬝ (.star true (Re.space)) ⬝ (Re.chI 'h') ⬝ (.star true (Re.space)) ⬝ (Re.chI 'i') ⬝ (.star true (Re.space)) ⬝ (Re.chI 's') ⬝ (.star true (Re.space)) ⬝ (Re.strI (py! " a")) ⬝ (.star true (Re.space)) ⬝ (Re.chI 'r') ⬝ (.star true (Re.space)) ⬝ (Re.chI 't') ⬝ (.star true (Re.space)) ⬝ (Re.chI 'i') ⬝ (.star true (Re.space)) ⬝ (Re.chI 'c') ⬝ (.star true (Re.space)) ⬝ (Re.chI 'l') ⬝ (.star true (Re.space)) ⬝ (Re.chI 'e') ⬝ (.star true (Re.space)) ⬝ (Re.strI (py! " w")) ⬝ (.star true (Re.space)) ⬝ (Re.chI 'a') ⬝ (.star true (Re.space)) ⬝ (Re.chI 's') ⬝ (.star true (Re.space)) ⬝ (Re.strI (py! " p")) ⬝ (.star true (Re.space)) ⬝ (Re.chI 'r') ⬝ (.star true (Re.space)) ⬝ (Re.chI 'o') ⬝ (.star true (Re.space)) ⬝ (Re.chI 'c') ⬝ (.star true (Re.space)) ⬝ (Re.chI 'e') ⬝ (.star true (Re.space)) ⬝ (Re.chI 's') ⬝ (.star true (Re.space)) ⬝ (Re.chI 's') ⬝ (.star true (Re.space)) ⬝ (Re.chI 'e') ⬝ (.star true (Re.space)) ⬝ (Re.chI 'd') ⬝ (.star true (Re.space)) ⬝ (Re.strI (py! " b")) ⬝ (.star true (Re.space)) ⬝ (Re.chI 'y') ⬝ (.star true (Re.space)) ⬝ (Re.strI (py! " t")) ⬝ (.star true (Re.space)) ⬝ (Re.chI 'h') ⬝ (.star true (Re.space)) ⬝ (Re.chI 'e') ⬝ (.star true (Re.space)) ⬝ (Re.strI (py! " a")) ⬝ (.star true (Re.space)) ⬝ (Re.chI 'u') ⬝ (.star true (Re.space)) ⬝ (Re.chI 't') ⬝ (.star true (Re.space)) ⬝ (Re.chI 'h') ⬝ (.star true (Re.space)) ⬝ (Re.chI 'o') ⬝ (.star true (Re.space)) ⬝ (Re.chI 'r') ⬝ (.star true (Re.space)) ⬝ (Re.strI (py! " u")) ⬝ (.star true (Re.space)) ⬝ (Re.chI 's') ⬝ (.star true (Re.space)) ⬝ (Re.chI 'i') ⬝ (.star true (Re.space)) ⬝ (Re.chI 'n') ⬝ (.star true (Re.space)) ⬝ (Re.chI 'g') ⬝ (.star true (Re.space)) ⬝ (Re.strI (py! " S")) ⬝ (.star true (Re.space)) ⬝ (Re.chI 'p') ⬝ (.star true (Re.space)) ⬝ (Re.chI 'r') ⬝ (.star true (Re.space)) ⬝ (Re.chI 'i') ⬝ (.star true (Re.space)) ⬝ (Re.chI 'n') ⬝ (.star true (Re.space)) ⬝ (Re.chI 'g') ⬝ (.star true (Re.space)) ⬝ (Re.chI 'e') ⬝ (.star true (Re.space)) ⬝ (Re.chI 'r') ⬝ (.star true (Re.space)) ⬝ (Re.ch '-') ⬝ (.star true (Re.space)) ⬝ (Re.chI 'V') ⬝ (.star true (Re.space)) ⬝ (Re.chI 'e') ⬝ (.star true (Re.space)) ⬝ (Re.chI 'r') ⬝ (.star true (Re.space)) ⬝ (Re.chI 'l') ⬝ (.star true (Re.space)) ⬝ (Re.chI 'a') ⬝ (.star true (Re.space)) ⬝ (Re.chI 'g') ⬝ (.star true (Re.space)) ⬝ (Re.strI (py! " LATEX"))

/-- `refextract/references/regexs.py:1039-1067 get_post_reference_section_keyword_patterns` -/
def post_keyword_patterns : List Re :=
  [post_keyword_pattern_0,
   post_keyword_pattern_1,
   post_keyword_pattern_2,
   post_keyword_pattern_3]

/-- `refextract/references/regexs.py:1105-1110 remove_year`
```
\[\s*\s*\]
```
-/
def remove_year_0 (year : Re) : Re :=
  (Re.ch '[') ⬝ (.star true (Re.space)) ⬝ year ⬝ (.star true (Re.space)) ⬝ (Re.ch ']')

/-- `refextract/references/regexs.py:1105-1110 remove_year`
```
\(\s*\s*\)
```
-/
def remove_year_1 (year : Re) : Re :=
  (Re.ch '(') ⬝ (.star true (Re.space)) ⬝ year ⬝ (.star true (Re.space)) ⬝ (Re.ch ')')

/-- `refextract/references/regexs.py:1105-1110 remove_year`
```
\s*\s*
```
-/
def remove_year_2 (year : Re) : Re :=
  (.star true (Re.space)) ⬝ year ⬝ (.star true (Re.space))

/-- `refextract/documents/text.py:28-28 re_space_comma`
```
\s,
```
-/
def re_space_comma : Re :=
  Re.space ⬝ (Re.ch ',')

/-- `refextract/documents/text.py:29-29 re_space_semicolon`
```
\s;
```
-/
def re_space_semicolon : Re :=
  Re.space ⬝ (Re.ch ';')

/-- `refextract/documents/text.py:30-30 re_space_period`
```
\s\.
```
-/
def re_space_period : Re :=
  Re.space ⬝ (Re.ch '.')

/-- `refextract/documents/text.py:31-31 re_colon_space_colon`
```
:\s:
```
-/
def re_colon_space_colon : Re :=
  (Re.ch ':') ⬝ Re.space ⬝ (Re.ch ':')

/-- `refextract/documents/text.py:32-32 re_comma_space_colon`
```
,\s:
```
-/
def re_comma_space_colon : Re :=
  (Re.ch ',') ⬝ Re.space ⬝ (Re.ch ':')

/-- `refextract/documents/text.py:33-33 re_space_closing_square_bracket`
```
\s\]
```
-/
def re_space_closing_square_bracket : Re :=
  Re.space ⬝ (Re.ch ']')

/-- `refextract/documents/text.py:34-34 re_opening_square_bracket_space`
```
\[\s
```
-/
def re_opening_square_bracket_space : Re :=
  (Re.ch '[') ⬝ Re.space

/-- `refextract/documents/text.py:35-40 re_hyphens`
```
(\\255|˗|̵|̶|−|-|﹣|－)
```
-/
def re_hyphens : Re :=
  Re.alts [.str (py! "\\255"), Re.ch '\u02d7', Re.ch '\u0335', Re.ch '\u0336', Re.ch '\u2212', Re.ch '-', Re.ch '\ufe63', Re.ch '\uff0d']

/-- `refextract/documents/text.py:41-41 re_multiple_space`
```
\s{2,}
```
-/
def re_multiple_space : Re :=
  Re.atLeast 2 (Re.space)

/-- `refextract/documents/text.py:43-43 re_group_captured_multiple_space`
```
(\s{2,})
```
-/
def re_group_captured_multiple_space : Re :=
  Re.atLeast 2 (Re.space)

/-- `refextract/documents/text.py:46-97 get_url_repair_patterns` flags I
```
(h\s*t\s*t\s*p\s*\:\s*\/\s*\/)
```
-/
def url_repair_pattern_0 : Re :=
  .group 1 ((Re.chI 'h') ⬝ (.star true (Re.space)) ⬝ (Re.chI 't') ⬝ (.star true (Re.space)) ⬝ (Re.chI 't') ⬝ (.star true (Re.space)) ⬝ (Re.chI 'p') ⬝ (.star true (Re.space)) ⬝ (Re.ch ':') ⬝ (.star true (Re.space)) ⬝ (Re.ch '/') ⬝ (.star true (Re.space)) ⬝ (Re.ch '/'))

/-- `refextract/documents/text.py:46-97 get_url_repair_patterns` flags I
```
(f\s*t\s*p\s*\:\s*\/\s*\/\s*)
```
-/
def url_repair_pattern_1 : Re :=
  .group 1 ((Re.chI 'f') ⬝ (.star true (Re.space)) ⬝ (Re.chI 't') ⬝ (.star true (Re.space)) ⬝ (Re.chI 'p') ⬝ (.star true (Re.space)) ⬝ (Re.ch ':') ⬝ (.star true (Re.space)) ⬝ (Re.ch '/') ⬝ (.star true (Re.space)) ⬝ (Re.ch '/') ⬝ (.star true (Re.space)))

/-- `refextract/documents/text.py:46-97 get_url_repair_patterns` flags I
```
((http|ftp):\/\/\s*[\w\d])
```
-/
def url_repair_pattern_2 : Re :=
  .group 1 ((Re.alts [Re.strI (py! "http"), Re.strI (py! "ftp")]) ⬝ (Re.strI (py! "://")) ⬝ (.star true (Re.space)) ⬝ (.set ⟨false, false, [.word, .digit]⟩))

/-- `refextract/documents/text.py:46-97 get_url_repair_patterns` flags I
```
((http|ftp):\/\/([\w\d\s\._\-])+?\s*\/)
```
-/
def url_repair_pattern_3 : Re :=
  .group 1 ((Re.alts [Re.strI (py! "http"), Re.strI (py! "ftp")]) ⬝ (Re.strI (py! "://")) ⬝ (Re.plusL (.set ⟨false, false, [.word, .digit, .space, .ch '.', .ch '_', .ch '-']⟩)) ⬝ (.star true (Re.space)) ⬝ (Re.ch '/'))

/-- `refextract/documents/text.py:46-97 get_url_repair_patterns` flags I
```
((http|ftp):\/\/([\w\d\_\.\-])+\/(([\w\d\_\s\.\-])+?\/)+)
```
-/
def url_repair_pattern_4 : Re :=
  .group 1 ((Re.alts [Re.strI (py! "http"), Re.strI (py! "ftp")]) ⬝ (Re.strI (py! "://")) ⬝ (Re.plus (.set ⟨false, false, [.word, .digit, .ch '_', .ch '.', .ch '-']⟩)) ⬝ (Re.ch '/') ⬝ Re.plus ((Re.plusL (.set ⟨false, false, [.word, .digit, .ch '_', .space, .ch '.', .ch '-']⟩)) ⬝ (Re.ch '/')))

/-- `refextract/documents/text.py:46-97 get_url_repair_patterns` flags I
```
((http|ftp):\/\/([\w\d\_\.\-])+\/(([\w\d\_\s\.\-])+?\/)*([\w\d\_\s\-]+\.\s?[\w\d]+))
```
-/
def url_repair_pattern_5 : Re :=
  .group 1 ((Re.alts [Re.strI (py! "http"), Re.strI (py! "ftp")]) ⬝ (Re.strI (py! "://")) ⬝ (Re.plus (.set ⟨false, false, [.word, .digit, .ch '_', .ch '.', .ch '-']⟩)) ⬝ (Re.ch '/') ⬝ (.star true ((Re.plusL (.set ⟨false, false, [.word, .digit, .ch '_', .space, .ch '.', .ch '-']⟩)) ⬝ (Re.ch '/'))) ⬝ (Re.plus (.set ⟨false, false, [.word, .digit, .ch '_', .space, .ch '-']⟩)) ⬝ (Re.ch '.') ⬝ (Re.opt (Re.space)) ⬝ (Re.plus (.set ⟨false, false, [.word, .digit]⟩)))

/-- `refextract/documents/text.py:46-97 get_url_repair_patterns` flags I
```
((http|ftp):\/\/([\w\d\_\.\-])+\/(([\w\d\_\.\-])+?\/)*([\w\d\_\-]+\.h\s*t\s*m))
```
-/
def url_repair_pattern_6 : Re :=
  .group 1 ((Re.alts [Re.strI (py! "http"), Re.strI (py! "ftp")]) ⬝ (Re.strI (py! "://")) ⬝ (Re.plus (.set ⟨false, false, [.word, .digit, .ch '_', .ch '.', .ch '-']⟩)) ⬝ (Re.ch '/') ⬝ (.star true ((Re.plusL (.set ⟨false, false, [.word, .digit, .ch '_', .ch '.', .ch '-']⟩)) ⬝ (Re.ch '/'))) ⬝ (Re.plus (.set ⟨false, false, [.word, .digit, .ch '_', .ch '-']⟩)) ⬝ (Re.strI (py! ".h")) ⬝ (.star true (Re.space)) ⬝ (Re.chI 't') ⬝ (.star true (Re.space)) ⬝ (Re.chI 'm'))

/-- `refextract/documents/text.py:46-97 get_url_repair_patterns` flags I
```
((http|ftp):\/\/([\w\d\_\.\-])+\/(([\w\d\_\.\-])+?\/)*([\w\d\_\-]+\.h\s*t\s*m\s*l))
```
-/
def url_repair_pattern_7 : Re :=
  .group 1 ((Re.alts [Re.strI (py! "http"), Re.strI (py! "ftp")]) ⬝ (Re.strI (py! "://")) ⬝ (Re.plus (.set ⟨false, false, [.word, .digit, .ch '_', .ch '.', .ch '-']⟩)) ⬝ (Re.ch '/') ⬝ (.star true ((Re.plusL (.set ⟨false, false, [.word, .digit, .ch '_', .ch '.', .ch '-']⟩)) ⬝ (Re.ch '/'))) ⬝ (Re.plus (.set ⟨false, false, [.word, .digit, .ch '_', .ch '-']⟩)) ⬝ (Re.strI (py! ".h")) ⬝ (.star true (Re.space)) ⬝ (Re.chI 't') ⬝ (.star true (Re.space)) ⬝ (Re.chI 'm') ⬝ (.star true (Re.space)) ⬝ (Re.chI 'l'))

/-- `refextract/documents/text.py:46-97 get_url_repair_patterns` flags I
```
((http|ftp):\/\/([\w\d\_\.\-])+\/(([\w\d\_\.\-])+?\/)*([\w\d\_\-]+\.t\s*x\s*t))
```
-/
def url_repair_pattern_8 : Re :=
  .group 1 ((Re.alts [Re.strI (py! "http"), Re.strI (py! "ftp")]) ⬝ (Re.strI (py! "://")) ⬝ (Re.plus (.set ⟨false, false, [.word, .digit, .ch '_', .ch '.', .ch '-']⟩)) ⬝ (Re.ch '/') ⬝ (.star true ((Re.plusL (.set ⟨false, false, [.word, .digit, .ch '_', .ch '.', .ch '-']⟩)) ⬝ (Re.ch '/'))) ⬝ (Re.plus (.set ⟨false, false, [.word, .digit, .ch '_', .ch '-']⟩)) ⬝ (Re.strI (py! ".t")) ⬝ (.star true (Re.space)) ⬝ (Re.chI 'x') ⬝ (.star true (Re.space)) ⬝ (Re.chI 't'))

/-- `refextract/documents/text.py:46-97 get_url_repair_patterns` flags I
```
((http|ftp):\/\/([\w\d\_\.\-])+\/(([\w\d\_\.\-])+?\/)*([\w\d\_\-]+\.p\s*h\s*p))
```
-/
def url_repair_pattern_9 : Re :=
  .group 1 ((Re.alts [Re.strI (py! "http"), Re.strI (py! "ftp")]) ⬝ (Re.strI (py! "://")) ⬝ (Re.plus (.set ⟨false, false, [.word, .digit, .ch '_', .ch '.', .ch '-']⟩)) ⬝ (Re.ch '/') ⬝ (.star true ((Re.plusL (.set ⟨false, false, [.word, .digit, .ch '_', .ch '.', .ch '-']⟩)) ⬝ (Re.ch '/'))) ⬝ (Re.plus (.set ⟨false, false, [.word, .digit, .ch '_', .ch '-']⟩)) ⬝ (Re.strI (py! ".p")) ⬝ (.star true (Re.space)) ⬝ (Re.chI 'h') ⬝ (.star true (Re.space)) ⬝ (Re.chI 'p'))

/-- `refextract/documents/text.py:46-97 get_url_repair_patterns` flags I
```
((http|ftp):\/\/([\w\d\_\.\-])+\/(([\w\d\_\.\-])+?\/)*([\w\d\_\-]+\.a\s*s\s*p\s*))
```
-/
def url_repair_pattern_10 : Re :=
  .group 1 ((Re.alts [Re.strI (py! "http"), Re.strI (py! "ftp")]) ⬝ (Re.strI (py! "://")) ⬝ (Re.plus (.set ⟨false, false, [.word, .digit, .ch '_', .ch '.', .ch '-']⟩)) ⬝ (Re.ch '/') ⬝ (.star true ((Re.plusL (.set ⟨false, false, [.word, .digit, .ch '_', .ch '.', .ch '-']⟩)) ⬝ (Re.ch '/'))) ⬝ (Re.plus (.set ⟨false, false, [.word, .digit, .ch '_', .ch '-']⟩)) ⬝ (Re.strI (py! ".a")) ⬝ (.star true (Re.space)) ⬝ (Re.chI 's') ⬝ (.star true (Re.space)) ⬝ (Re.chI 'p') ⬝ (.star true (Re.space)))

/-- `refextract/documents/text.py:46-97 get_url_repair_patterns` flags I
```
((http|ftp):\/\/([\w\d\_\.\-])+\/(([\w\d\_\.\-])+?\/)*([\w\d\_\-]+\.j\s*s\s*p))
```
-/
def url_repair_pattern_11 : Re :=
  .group 1 ((Re.alts [Re.strI (py! "http"), Re.strI (py! "ftp")]) ⬝ (Re.strI (py! "://")) ⬝ (Re.plus (.set ⟨false, false, [.word, .digit, .ch '_', .ch '.', .ch '-']⟩)) ⬝ (Re.ch '/') ⬝ (.star true ((Re.plusL (.set ⟨false, false, [.word, .digit, .ch '_', .ch '.', .ch '-']⟩)) ⬝ (Re.ch '/'))) ⬝ (Re.plus (.set ⟨false, false, [.word, .digit, .ch '_', .ch '-']⟩)) ⬝ (Re.strI (py! ".j")) ⬝ (.star true (Re.space)) ⬝ (Re.chI 's') ⬝ (.star true (Re.space)) ⬝ (Re.chI 'p'))

/-- `refextract/documents/text.py:46-97 get_url_repair_patterns` flags I
```
((http|ftp):\/\/([\w\d\_\.\-])+\/(([\w\d\_\.\-])+?\/)*([\w\d\_\-]+\.p\s*y))
```
-/
def url_repair_pattern_12 : Re :=
  .group 1 ((Re.alts [Re.strI (py! "http"), Re.strI (py! "ftp")]) ⬝ (Re.strI (py! "://")) ⬝ (Re.plus (.set ⟨false, false, [.word, .digit, .ch '_', .ch '.', .ch '-']⟩)) ⬝ (Re.ch '/') ⬝ (.star true ((Re.plusL (.set ⟨false, false, [.word, .digit, .ch '_', .ch '.', .ch '-']⟩)) ⬝ (Re.ch '/'))) ⬝ (Re.plus (.set ⟨false, false, [.word, .digit, .ch '_', .ch '-']⟩)) ⬝ (Re.strI (py! ".p")) ⬝ (.star true (Re.space)) ⬝ (Re.chI 'y'))

/-- `refextract/documents/text.py:46-97 get_url_repair_patterns` flags I
```
((http|ftp):\/\/([\w\d\_\.\-])+\/(([\w\d\_\.\-])+?\/)*([\w\d\_\-]+\.p\s*l))
```
-/
def url_repair_pattern_13 : Re :=
  .group 1 ((Re.alts [Re.strI (py! "http"), Re.strI (py! "ftp")]) ⬝ (Re.strI (py! "://")) ⬝ (Re.plus (.set ⟨false, false, [.word, .digit, .ch '_', .ch '.', .ch '-']⟩)) ⬝ (Re.ch '/') ⬝ (.star true ((Re.plusL (.set ⟨false, false, [.word, .digit, .ch '_', .ch '.', .ch '-']⟩)) ⬝ (Re.ch '/'))) ⬝ (Re.plus (.set ⟨false, false, [.word, .digit, .ch '_', .ch '-']⟩)) ⬝ (Re.strI (py! ".p")) ⬝ (.star true (Re.space)) ⬝ (Re.chI 'l'))

/-- `refextract/documents/text.py:46-97 get_url_repair_patterns` flags I
```
((http|ftp):\/\/([\w\d\_\.\-])+\/(([\w\d\_\.\-])+?\/)*([\w\d\_\-]+\.x\s*m\s*l))
```
-/
def url_repair_pattern_14 : Re :=
  .group 1 ((Re.alts [Re.strI (py! "http"), Re.strI (py! "ftp")]) ⬝ (Re.strI (py! "://")) ⬝ (Re.plus (.set ⟨false, false, [.word, .digit, .ch '_', .ch '.', .ch '-']⟩)) ⬝ (Re.ch '/') ⬝ (.star true ((Re.plusL (.set ⟨false, false, [.word, .digit, .ch '_', .ch '.', .ch '-']⟩)) ⬝ (Re.ch '/'))) ⬝ (Re.plus (.set ⟨false, false, [.word, .digit, .ch '_', .ch '-']⟩)) ⬝ (Re.strI (py! ".x")) ⬝ (.star true (Re.space)) ⬝ (Re.chI 'm') ⬝ (.star true (Re.space)) ⬝ (Re.chI 'l'))

/-- `refextract/documents/text.py:46-97 get_url_repair_patterns` flags I
```
((http|ftp):\/\/([\w\d\_\.\-])+\/(([\w\d\_\.\-])+?\/)*([\w\d\_\-]+\.j\s*p\s*g))
```
-/
def url_repair_pattern_15 : Re :=
  .group 1 ((Re.alts [Re.strI (py! "http"), Re.strI (py! "ftp")]) ⬝ (Re.strI (py! "://")) ⬝ (Re.plus (.set ⟨false, false, [.word, .digit, .ch '_', .ch '.', .ch '-']⟩)) ⬝ (Re.ch '/') ⬝ (.star true ((Re.plusL (.set ⟨false, false, [.word, .digit, .ch '_', .ch '.', .ch '-']⟩)) ⬝ (Re.ch '/'))) ⬝ (Re.plus (.set ⟨false, false, [.word, .digit, .ch '_', .ch '-']⟩)) ⬝ (Re.strI (py! ".j")) ⬝ (.star true (Re.space)) ⬝ (Re.chI 'p') ⬝ (.star true (Re.space)) ⬝ (Re.chI 'g'))

/-- `refextract/documents/text.py:46-97 get_url_repair_patterns` flags I
```
((http|ftp):\/\/([\w\d\_\.\-])+\/(([\w\d\_\.\-])+?\/)*([\w\d\_\-]+\.g\s*i\s*f))
```
-/
def url_repair_pattern_16 : Re :=
  .group 1 ((Re.alts [Re.strI (py! "http"), Re.strI (py! "ftp")]) ⬝ (Re.strI (py! "://")) ⬝ (Re.plus (.set ⟨false, false, [.word, .digit, .ch '_', .ch '.', .ch '-']⟩)) ⬝ (Re.ch '/') ⬝ (.star true ((Re.plusL (.set ⟨false, false, [.word, .digit, .ch '_', .ch '.', .ch '-']⟩)) ⬝ (Re.ch '/'))) ⬝ (Re.plus (.set ⟨false, false, [.word, .digit, .ch '_', .ch '-']⟩)) ⬝ (Re.strI (py! ".g")) ⬝ (.star true (Re.space)) ⬝ (Re.chI 'i') ⬝ (.star true (Re.space)) ⬝ (Re.chI 'f'))

/-- `refextract/documents/text.py:46-97 get_url_repair_patterns` flags I
```
((http|ftp):\/\/([\w\d\_\.\-])+\/(([\w\d\_\.\-])+?\/)*([\w\d\_\-]+\.m\s*o\s*v))
```
-/
def url_repair_pattern_17 : Re :=
  .group 1 ((Re.alts [Re.strI (py! "http"), Re.strI (py! "ftp")]) ⬝ (Re.strI (py! "://")) ⬝ (Re.plus (.set ⟨false, false, [.word, .digit, .ch '_', .ch '.', .ch '-']⟩)) ⬝ (Re.ch '/') ⬝ (.star true ((Re.plusL (.set ⟨false, false, [.word, .digit, .ch '_', .ch '.', .ch '-']⟩)) ⬝ (Re.ch '/'))) ⬝ (Re.plus (.set ⟨false, false, [.word, .digit, .ch '_', .ch '-']⟩)) ⬝ (Re.strI (py! ".m")) ⬝ (.star true (Re.space)) ⬝ (Re.chI 'o') ⬝ (.star true (Re.space)) ⬝ (Re.chI 'v'))

/-- `refextract/documents/text.py:46-97 get_url_repair_patterns` flags I
```
((http|ftp):\/\/([\w\d\_\.\-])+\/(([\w\d\_\.\-])+?\/)*([\w\d\_\-]+\.s\s*w\s*f))
```
-/
def url_repair_pattern_18 : Re :=
  .group 1 ((Re.alts [Re.strI (py! "http"), Re.strI (py! "ftp")]) ⬝ (Re.strI (py! "://")) ⬝ (Re.plus (.set ⟨false, false, [.word, .digit, .ch '_', .ch '.', .ch '-']⟩)) ⬝ (Re.ch '/') ⬝ (.star true ((Re.plusL (.set ⟨false, false, [.word, .digit, .ch '_', .ch '.', .ch '-']⟩)) ⬝ (Re.ch '/'))) ⬝ (Re.plus (.set ⟨false, false, [.word, .digit, .ch '_', .ch '-']⟩)) ⬝ (Re.strI (py! ".s")) ⬝ (.star true (Re.space)) ⬝ (Re.chI 'w') ⬝ (.star true (Re.space)) ⬝ (Re.chI 'f'))

/-- `refextract/documents/text.py:46-97 get_url_repair_patterns` flags I
```
((http|ftp):\/\/([\w\d\_\.\-])+\/(([\w\d\_\.\-])+?\/)*([\w\d\_\-]+\.p\s*d\s*f))
```
-/
def url_repair_pattern_19 : Re :=
  .group 1 ((Re.alts [Re.strI (py! "http"), Re.strI (py! "ftp")]) ⬝ (Re.strI (py! "://")) ⬝ (Re.plus (.set ⟨false, false, [.word, .digit, .ch '_', .ch '.', .ch '-']⟩)) ⬝ (Re.ch '/') ⬝ (.star true ((Re.plusL (.set ⟨false, false, [.word, .digit, .ch '_', .ch '.', .ch '-']⟩)) ⬝ (Re.ch '/'))) ⬝ (Re.plus (.set ⟨false, false, [.word, .digit, .ch '_', .ch '-']⟩)) ⬝ (Re.strI (py! ".p")) ⬝ (.star true (Re.space)) ⬝ (Re.chI 'd') ⬝ (.star true (Re.space)) ⬝ (Re.chI 'f'))

/-- `refextract/documents/text.py:46-97 get_url_repair_patterns` flags I
```
((http|ftp):\/\/([\w\d\_\.\-])+\/(([\w\d\_\.\-])+?\/)*([\w\d\_\-]+\.p\s*s))
```
-/
def url_repair_pattern_20 : Re :=
  .group 1 ((Re.alts [Re.strI (py! "http"), Re.strI (py! "ftp")]) ⬝ (Re.strI (py! "://")) ⬝ (Re.plus (.set ⟨false, false, [.word, .digit, .ch '_', .ch '.', .ch '-']⟩)) ⬝ (Re.ch '/') ⬝ (.star true ((Re.plusL (.set ⟨false, false, [.word, .digit, .ch '_', .ch '.', .ch '-']⟩)) ⬝ (Re.ch '/'))) ⬝ (Re.plus (.set ⟨false, false, [.word, .digit, .ch '_', .ch '-']⟩)) ⬝ (Re.strI (py! ".p")) ⬝ (.star true (Re.space)) ⬝ (Re.chI 's'))

/-- `refextract/documents/text.py:46-97 get_url_repair_patterns` flags I
```
((http|ftp):\/\/([\w\d\_\.\-])+\/(([\w\d\_\.\-])+?\/)*([\w\d\_\-]+\.d\s*o\s*c))
```
-/
def url_repair_pattern_21 : Re :=
  .group 1 ((Re.alts [Re.strI (py! "http"), Re.strI (py! "ftp")]) ⬝ (Re.strI (py! "://")) ⬝ (Re.plus (.set ⟨false, false, [.word, .digit, .ch '_', .ch '.', .ch '-']⟩)) ⬝ (Re.ch '/') ⬝ (.star true ((Re.plusL (.set ⟨false, false, [.word, .digit, .ch '_', .ch '.', .ch '-']⟩)) ⬝ (Re.ch '/'))) ⬝ (Re.plus (.set ⟨false, false, [.word, .digit, .ch '_', .ch '-']⟩)) ⬝ (Re.strI (py! ".d")) ⬝ (.star true (Re.space)) ⬝ (Re.chI 'o') ⬝ (.star true (Re.space)) ⬝ (Re.chI 'c'))

/-- `refextract/documents/text.py:46-97 get_url_repair_patterns` flags I
```
((http|ftp):\/\/([\w\d\_\.\-])+\/(([\w\d\_\.\-])+?\/)*([\w\d\_\-]+\.t\s*e\s*x))
```
-/
def url_repair_pattern_22 : Re :=
  .group 1 ((Re.alts [Re.strI (py! "http"), Re.strI (py! "ftp")]) ⬝ (Re.strI (py! "://")) ⬝ (Re.plus (.set ⟨false, false, [.word, .digit, .ch '_', .ch '.', .ch '-']⟩)) ⬝ (Re.ch '/') ⬝ (.star true ((Re.plusL (.set ⟨false, false, [.word, .digit, .ch '_', .ch '.', .ch '-']⟩)) ⬝ (Re.ch '/'))) ⬝ (Re.plus (.set ⟨false, false, [.word, .digit, .ch '_', .ch '-']⟩)) ⬝ (Re.strI (py! ".t")) ⬝ (.star true (Re.space)) ⬝ (Re.chI 'e') ⬝ (.star true (Re.space)) ⬝ (Re.chI 'x'))

/-- `refextract/documents/text.py:46-97 get_url_repair_patterns` flags I
```
((http|ftp):\/\/([\w\d\_\.\-])+\/(([\w\d\_\.\-])+?\/)*([\w\d\_\-]+\.s\s*h\s*t\s*m\s*l))
```
-/
def url_repair_pattern_23 : Re :=
  .group 1 ((Re.alts [Re.strI (py! "http"), Re.strI (py! "ftp")]) ⬝ (Re.strI (py! "://")) ⬝ (Re.plus (.set ⟨false, false, [.word, .digit, .ch '_', .ch '.', .ch '-']⟩)) ⬝ (Re.ch '/') ⬝ (.star true ((Re.plusL (.set ⟨false, false, [.word, .digit, .ch '_', .ch '.', .ch '-']⟩)) ⬝ (Re.ch '/'))) ⬝ (Re.plus (.set ⟨false, false, [.word, .digit, .ch '_', .ch '-']⟩)) ⬝ (Re.strI (py! ".s")) ⬝ (.star true (Re.space)) ⬝ (Re.chI 'h') ⬝ (.star true (Re.space)) ⬝ (Re.chI 't') ⬝ (.star true (Re.space)) ⬝ (Re.chI 'm') ⬝ (.star true (Re.space)) ⬝ (Re.chI 'l'))

/-- `refextract/documents/text.py:46-97 get_url_repair_patterns` flags I
```
((http|ftp):\/\/([\w\d\_\.\-])+\/(([\w\d\_\.\-])+?\/)*\s*?([\w\d\_\.\-]\s?){1,10}\s*)$
```
-/
def url_repair_pattern_24 : Re :=
  (.group 1 ((Re.alts [Re.strI (py! "http"), Re.strI (py! "ftp")]) ⬝ (Re.strI (py! "://")) ⬝ (Re.plus (.set ⟨false, false, [.word, .digit, .ch '_', .ch '.', .ch '-']⟩)) ⬝ (Re.ch '/') ⬝ (.star true ((Re.plusL (.set ⟨false, false, [.word, .digit, .ch '_', .ch '.', .ch '-']⟩)) ⬝ (Re.ch '/'))) ⬝ (.star false (Re.space)) ⬝ (Re.rep 1 10 ((.set ⟨false, false, [.word, .digit, .ch '_', .ch '.', .ch '-']⟩) ⬝ (Re.opt (Re.space)))) ⬝ (.star true (Re.space)))) ⬝ .eos

/-- `refextract/documents/text.py:46-97 get_url_repair_patterns` -/
def url_repair_patterns : List Re :=
  [url_repair_pattern_0,
   url_repair_pattern_1,
   url_repair_pattern_2,
   url_repair_pattern_3,
   url_repair_pattern_4,
   url_repair_pattern_5,
   url_repair_pattern_6,
   url_repair_pattern_7,
   url_repair_pattern_8,
   url_repair_pattern_9,
   url_repair_pattern_10,
   url_repair_pattern_11,
   url_repair_pattern_12,
   url_repair_pattern_13,
   url_repair_pattern_14,
   url_repair_pattern_15,
   url_repair_pattern_16,
   url_repair_pattern_17,
   url_repair_pattern_18,
   url_repair_pattern_19,
   url_repair_pattern_20,
   url_repair_pattern_21,
   url_repair_pattern_22,
   url_repair_pattern_23,
   url_repair_pattern_24]

/-- `refextract/authors/regexs.py:194-367 make_auth_regex_str` flags X
```

    ## Must be the start of the line, a space (or an opening bracket in very few cases)
     (?:^|\s+|\()
     ## Look for editor notation before the author
     (?P<es>
      ## 'eds?. '     | 'ed '      | 'ed.'
      (?:(?:(?:[Ee][Dd]s?|[Ee]dited|[Ee]ditors?)((?:\.\s?)|(?:\.?\s)))
      ## 'eds?. by, ' | 'ed. by: ' | 'ed by '  | 'ed. by '| 'ed by: '
      |(?:(?:[Ee][Dd]s?|[Ee]dited|[Ee]ditions?)(?:(?:\.\s?)|(?:\.?\s))by(?:\s|([:,]\s)))
       ## '( eds?. )'  | '(ed.)'    | '(ed )'   | '( ed )' | '(ed)'
      |(?:\(\s?([Ee][Dd]s?|[Ee]dited|[Ee]ditors?)(?:(?:\.\s?)|(?:\.?\s))?\)))
     )?

  … 
```
-/
def RE_AUTH : Re :=
  (Re.alts [.bos, Re.plus (Re.space), Re.ch '(']) ⬝ (Re.opt (.group G.es (Re.alts [(.set ⟨false, false, [.ch 'E', .ch 'e']⟩) ⬝ (Re.alts [(.set ⟨false, false, [.ch 'D', .ch 'd']⟩) ⬝ (Re.opt (Re.ch 's')), .str (py! "dited"), (.str (py! "ditor")) ⬝ (Re.opt (Re.ch 's'))]) ⬝ Re.alts [(Re.ch '.') ⬝ (Re.opt (Re.space)), (Re.opt (Re.ch '.')) ⬝ Re.space], (.set ⟨false, false, [.ch 'E', .ch 'e']⟩) ⬝ (Re.alts [(.set ⟨false, false, [.ch 'D', .ch 'd']⟩) ⬝ (Re.opt (Re.ch 's')), .str (py! "dited"), (.str (py! "dition")) ⬝ (Re.opt (Re.ch 's'))]) ⬝ (Re.alts [(Re.ch '.') ⬝ (Re.opt (Re.space)), (Re.opt (Re.ch '.')) ⬝ Re.space]) ⬝ (.str (py! "by")) ⬝ Re.alts [Re.space, (.set ⟨false, false, [.ch ':', .ch ',']⟩) ⬝ Re.space], (Re.ch '(') ⬝ (Re.opt (Re.space)) ⬝ ((.set ⟨false, false, [.ch 'E', .ch 'e']⟩) ⬝ Re.alts [(.set ⟨false, false, [.ch 'D', .ch 'd']⟩) ⬝ (Re.opt (Re.ch 's')), .str (py! "dited"), (.str (py! "ditor")) ⬝ (Re.opt (Re.ch 's'))]) ⬝ (Re.opt (Re.alts [(Re.ch '.') ⬝ (Re.opt (Re.space)), (Re.opt (Re.ch '.')) ⬝ Re.space])) ⬝ (Re.ch ')')]))) ⬝ (.group G.author_names (Re.alts [(Re.opt ((.set ⟨false, false, [.range 'A' 'Z']⟩) ⬝ (Re.rep 0 4 ((.star true (Re.space)) ⬝ (Re.rep 1 2 (.set ⟨false, false, [.ch '.', .ch '\'', .ch '\u2019', .ch '-']⟩)) ⬝ (.star true (Re.space)) ⬝ (.set ⟨false, false, [.range 'A' 'Z']⟩))) ⬝ (.set ⟨false, false, [.ch '.', .space]⟩) ⬝ (.star true (Re.space)))) ⬝ (.set ⟨false, false, [.range 'A' 'Z']⟩) ⬝ (Re.rep 2 20 (.set ⟨true, false, [.range '0' '9', .ch '_', .ch '.', .space]⟩)) ⬝ (Re.alts [(.set ⟨false, false, [.ch ',', .ch '.']⟩) ⬝ (.star true (Re.space)), (Re.opt (.set ⟨false, false, [.ch ',', .ch '.']⟩)) ⬝ (Re.plus (Re.space))]) ⬝ (Re.opt ((.set ⟨false, false, [.range 'A' 'Z']⟩) ⬝ (Re.rep 0 4 ((.star true (Re.space)) ⬝ (Re.rep 1 2 (.set ⟨false, false, [.ch '.', .ch '\'', .ch '\u2019', .ch '-']⟩)) ⬝ (.star true (Re.space)) ⬝ (.set ⟨false, false, [.range 'A' 'Z']⟩))) ⬝ (.set ⟨false, false, [.ch '.', .space]⟩) ⬝ (.star true (Re.space)))) ⬝ (Re.opt (.group G.multi_surs ((Re.alts [(.set ⟨false, false, [.ch 'A', .ch 'a']⟩) ⬝ (.set ⟨false, false, [.ch 'N', .ch 'n']⟩) ⬝ (.set ⟨false, false, [.ch 'D', .ch 'd']⟩), Re.ch '&']) ⬝ (Re.plus (Re.space)) ⬝ (.set ⟨false, false, [.range 'A' 'Z']⟩) ⬝ (Re.rep 3 20 (.set ⟨true, false, [.range '0' '9', .ch '_', .ch '.', .space]⟩)) ⬝ (Re.alts [(.set ⟨false, false, [.ch ',', .ch '.']⟩) ⬝ (.star true (Re.space)), (Re.opt (.set ⟨false, false, [.ch ',', .ch '.']⟩)) ⬝ (Re.plus (Re.space))]) ⬝ Re.opt ((.set ⟨false, false, [.range 'A' 'Z']⟩) ⬝ (Re.opt ((.set ⟨false, false, [.ch ' ', .ch '-']⟩) ⬝ (.set ⟨false, false, [.range 'A' 'Z']⟩))) ⬝ (Re.plus (Re.space)))))) ⬝ (Re.opt ((.star true (Re.space)) ⬝ (Re.opt (.set ⟨false, false, [.ch ',', .space]⟩)) ⬝ (.star true (Re.space)) ⬝ (Re.opt (Re.ch '(')) ⬝ (.set ⟨false, false, [.ch 'E', .ch 'e']⟩) ⬝ (Re.alts [.set ⟨false, false, [.ch 'D', .ch 'd']⟩, .str (py! "dited"), .str (py! "ditor")]) ⬝ (Re.opt (Re.ch '.')) ⬝ (Re.opt (Re.space)) ⬝ (Re.opt (Re.ch ')')) ⬝ (Re.rep 0 2 (.set ⟨false, false, [.ch '.', .ch ',']⟩)))) ⬝ (.group G.et2 ((.set ⟨false, false, [.ch 'E', .ch 'e']⟩) ⬝ (.set ⟨false, false, [.ch 'T', .ch 't']⟩) ⬝ (Re.alts [(.set ⟨false, false, [.ch ',', .ch '.']⟩) ⬝ (.star true (Re.space)), (Re.opt (.set ⟨false, false, [.ch ',', .ch '.']⟩)) ⬝ (Re.plus (Re.space))]) ⬝ (.set ⟨false, false, [.ch 'A', .ch 'a']⟩) ⬝ (.set ⟨false, false, [.ch 'L', .ch 'l']⟩) ⬝ (Re.opt (.set ⟨false, false, [.ch ',', .ch '.']⟩)) ⬝ (Re.opt (.set ⟨false, false, [.ch ',', .ch '.']⟩)))) ⬝ Re.opt ((.star true (Re.space)) ⬝ (Re.opt (.set ⟨false, false, [.ch ',', .space]⟩)) ⬝ (.star true (Re.space)) ⬝ (Re.opt (Re.ch '(')) ⬝ (.set ⟨false, false, [.ch 'E', .ch 'e']⟩) ⬝ (Re.alts [.set ⟨false, false, [.ch 'D', .ch 'd']⟩, .str (py! "dited"), .str (py! "ditor")]) ⬝ (Re.opt (Re.ch '.')) ⬝ (Re.opt (Re.space)) ⬝ (Re.opt (Re.ch ')')) ⬝ (Re.rep 0 2 (.set ⟨false, false, [.ch '.', .ch ',']⟩))), (Re.alts [(Re.opt ((.set ⟨false, false, [.authUpper]⟩) ⬝ (Re.rep 2 20 (Re.word)) ⬝ (Re.plus (Re.space)))) ⬝ (.behind true [⟨false, false, [.ch 'V']⟩, ⟨false, false, [.ch 'o']⟩, ⟨false, false, [.ch 'l']⟩, ⟨false, false, [.ch 'u']⟩, ⟨false, false, [.ch 'm']⟩, ⟨false, false, [.ch 'e']⟩, ⟨false, false, [.space]⟩]) ⬝ (.set ⟨false, false, [.authUpper]⟩) ⬝ (Re.rep 0 4 ((.star true (Re.space)) ⬝ (Re.rep 1 3 (.set ⟨false, false, [.ch '.', .ch '\'', .ch '\u2019', .space, .ch '-']⟩)) ⬝ (.star true (Re.space)) ⬝ (.set ⟨false, false, [.authUpper]⟩))) ⬝ (Re.rep 1 2 (.set ⟨false, false, [.ch '.', .space, .ch '-']⟩)) ⬝ (.star true (Re.space)) ⬝ (Re.opt ((.set ⟨false, false, [.authUpper]⟩) ⬝ (Re.rep 2 20 (Re.word)) ⬝ (Re.plus (Re.space)))) ⬝ (Re.opt ((.look true (.str (py! "at"))) ⬝ (Re.rep 1 3 (Re.word)) ⬝ (.behind true [⟨false, false, [.ch 'a']⟩, ⟨false, false, [.ch 'n']⟩, ⟨false, false, [.ch 'd']⟩]) ⬝ Re.alts [(.set ⟨false, false, [.ch '\u2019', .ch '\'', .ch '`', .ch '\u00b4', .ch '-']⟩) ⬝ (Re.opt (Re.space)), Re.space])) ⬝ (.look true (Re.alts [.str (py! "Supergravity"), .str (py! "Collaboration"), .str (py! "Theoretical"), .str (py! "Appendix"), .str (py! "Phys"), .str (py! "Paper"), .str (py! "Energy")])) ⬝ (.set ⟨false, false, [.authUpper]⟩) ⬝ (Re.alts [(.set ⟨false, false, [.ch 'r', .ch 'R']⟩) ⬝ (Re.ch '.'), Re.rep 1 20 (Re.word)]) ⬝ (Re.opt ((.set ⟨false, false, [.ch '-', .ch '\u2019', .ch '\'', .ch '`', .ch '\u00b4']⟩) ⬝ (Re.rep 1 20 (.set ⟨false, false, [.word, .ch '\u2019', .ch '\'']⟩)))) ⬝ (Re.opt (.set ⟨false, false, [.ch '\u2019', .ch '\'']⟩)) ⬝ Re.opt ((.star true (Re.space)) ⬝ (Re.opt (Re.ch ',')) ⬝ (.star true (Re.space)) ⬝ (Re.opt (Re.ch '(')) ⬝ (.set ⟨false, false, [.ch 'E', .ch 'e']⟩) ⬝ (Re.alts [.set ⟨false, false, [.ch 'D', .ch 'd']⟩, .str (py! "dited"), .str (py! "ditor")]) ⬝ (Re.opt (Re.ch '.')) ⬝ (Re.opt (Re.space)) ⬝ (Re.opt (Re.ch ')')) ⬝ (Re.rep 0 2 (.set ⟨false, false, [.ch '.', .ch ',']⟩))), .group G.sur_initial_auth ((Re.opt ((.look true (.str (py! "at"))) ⬝ (Re.rep 1 3 (Re.word)) ⬝ (.behind true [⟨false, false, [.ch 'a']⟩, ⟨false, false, [.ch 'n']⟩, ⟨false, false, [.ch 'd']⟩]) ⬝ (.behind true [⟨false, false, [.ch 'i']⟩, ⟨false, false, [.ch 'n']⟩]) ⬝ Re.alts [(.set ⟨false, false, [.ch '\u2019', .ch '\'', .ch '`', .ch '\u00b4', .ch '-']⟩) ⬝ (Re.opt (Re.space)), Re.space])) ⬝ (.look true (Re.alts [.str (py! "Supergravity"), .str (py! "Collaboration"), .str (py! "Theoretical"), .str (py! "Appendix"), .str (py! "Phys"), .str (py! "Paper"), .str (py! "Energy")])) ⬝ (.set ⟨false, false, [.authUpper]⟩) ⬝ (Re.rep 2 20 (Re.word)) ⬝ (Re.opt ((.set ⟨false, false, [.ch '-', .ch '\u2019', .ch '\'', .ch '`', .ch '\u00b4']⟩) ⬝ (Re.rep 2 20 (Re.word)))) ⬝ (.star true (Re.space)) ⬝ (.set ⟨false, false, [.ch ',', .ch '.', .space]⟩) ⬝ (.star true (Re.space)) ⬝ (.behind true [⟨false, false, [.ch 'V']⟩, ⟨false, false, [.ch 'o']⟩, ⟨false, false, [.ch 'l']⟩, ⟨false, false, [.ch 'u']⟩, ⟨false, false, [.ch 'm']⟩, ⟨false, false, [.ch 'e']⟩, ⟨false, false, [.space]⟩]) ⬝ (.set ⟨false, false, [.authUpper]⟩) ⬝ (Re.rep 0 4 ((.star true (Re.space)) ⬝ (Re.rep 1 2 (.set ⟨false, false, [.ch '.', .ch '\'', .ch '\u2019', .space, .ch '-']⟩)) ⬝ (.star true (Re.space)) ⬝ (.set ⟨false, false, [.authUpper]⟩))) ⬝ (Re.rep 0 2 (Re.ch '.')) ⬝ Re.opt ((.star true (Re.space)) ⬝ (Re.opt (Re.ch ',')) ⬝ (.star true (Re.space)) ⬝ (Re.opt (Re.ch '(')) ⬝ (.set ⟨false, false, [.ch 'E', .ch 'e']⟩) ⬝ (Re.alts [.set ⟨false, false, [.ch 'D', .ch 'd']⟩, .str (py! "dited"), .str (py! "ditor")]) ⬝ (Re.opt (Re.ch '.')) ⬝ (Re.opt (Re.space)) ⬝ (Re.opt (Re.ch ')')) ⬝ (Re.rep 0 2 (.set ⟨false, false, [.ch '.', .ch ',']⟩))))]) ⬝ (.group G.multi_auth ((.star true ((.star true (Re.space)) ⬝ (.set ⟨false, false, [.ch ',', .space]⟩) ⬝ (.star true (Re.space)) ⬝ Re.alts [(Re.opt ((.set ⟨false, false, [.authUpper]⟩) ⬝ (Re.rep 2 20 (Re.word)) ⬝ (Re.plus (Re.space)))) ⬝ (.behind true [⟨false, false, [.ch 'V']⟩, ⟨false, false, [.ch 'o']⟩, ⟨false, false, [.ch 'l']⟩, ⟨false, false, [.ch 'u']⟩, ⟨false, false, [.ch 'm']⟩, ⟨false, false, [.ch 'e']⟩, ⟨false, false, [.space]⟩]) ⬝ (.set ⟨false, false, [.authUpper]⟩) ⬝ (Re.rep 0 4 ((.star true (Re.space)) ⬝ (Re.rep 1 3 (.set ⟨false, false, [.ch '.', .ch '\'', .ch '\u2019', .space, .ch '-']⟩)) ⬝ (.star true (Re.space)) ⬝ (.set ⟨false, false, [.authUpper]⟩))) ⬝ (Re.rep 1 2 (.set ⟨false, false, [.ch '.', .space, .ch '-']⟩)) ⬝ (.star true (Re.space)) ⬝ (Re.opt ((.set ⟨false, false, [.authUpper]⟩) ⬝ (Re.rep 2 20 (Re.word)) ⬝ (Re.plus (Re.space)))) ⬝ (Re.opt ((.look true (.str (py! "at"))) ⬝ (Re.rep 1 3 (Re.word)) ⬝ (.behind true [⟨false, false, [.ch 'a']⟩, ⟨false, false, [.ch 'n']⟩, ⟨false, false, [.ch 'd']⟩]) ⬝ Re.alts [(.set ⟨false, false, [.ch '\u2019', .ch '\'', .ch '`', .ch '\u00b4', .ch '-']⟩) ⬝ (Re.opt (Re.space)), Re.space])) ⬝ (.look true (Re.alts [.str (py! "Supergravity"), .str (py! "Collaboration"), .str (py! "Theoretical"), .str (py! "Appendix"), .str (py! "Phys"), .str (py! "Paper"), .str (py! "Energy")])) ⬝ (.set ⟨false, false, [.authUpper]⟩) ⬝ (Re.alts [(.set ⟨false, false, [.ch 'r', .ch 'R']⟩) ⬝ (Re.ch '.'), Re.rep 1 20 (Re.word)]) ⬝ (Re.opt ((.set ⟨false, false, [.ch '-', .ch '\u2019', .ch '\'', .ch '`', .ch '\u00b4']⟩) ⬝ (Re.rep 1 20 (.set ⟨false, false, [.word, .ch '\u2019', .ch '\'']⟩)))) ⬝ (Re.opt (.set ⟨false, false, [.ch '\u2019', .ch '\'']⟩)) ⬝ Re.opt ((.star true (Re.space)) ⬝ (Re.opt (Re.ch ',')) ⬝ (.star true (Re.space)) ⬝ (Re.opt (Re.ch '(')) ⬝ (.set ⟨false, false, [.ch 'E', .ch 'e']⟩) ⬝ (Re.alts [.set ⟨false, false, [.ch 'D', .ch 'd']⟩, .str (py! "dited"), .str (py! "ditor")]) ⬝ (Re.opt (Re.ch '.')) ⬝ (Re.opt (Re.space)) ⬝ (Re.opt (Re.ch ')')) ⬝ (Re.rep 0 2 (.set ⟨false, false, [.ch '.', .ch ',']⟩))), (Re.opt ((.look true (.str (py! "at"))) ⬝ (Re.rep 1 3 (Re.word)) ⬝ (.behind true [⟨false, false, [.ch 'a']⟩, ⟨false, false, [.ch 'n']⟩, ⟨false, false, [.ch 'd']⟩]) ⬝ (.behind true [⟨false, false, [.ch 'i']⟩, ⟨false, false, [.ch 'n']⟩]) ⬝ Re.alts [(.set ⟨false, false, [.ch '\u2019', .ch '\'', .ch '`', .ch '\u00b4', .ch '-']⟩) ⬝ (Re.opt (Re.space)), Re.space])) ⬝ (.look true (Re.alts [.str (py! "Supergravity"), .str (py! "Collaboration"), .str (py! "Theoretical"), .str (py! "Appendix"), .str (py! "Phys"), .str (py! "Paper"), .str (py! "Energy")])) ⬝ (.set ⟨false, false, [.authUpper]⟩) ⬝ (Re.rep 2 20 (Re.word)) ⬝ (Re.opt ((.set ⟨false, false, [.ch '-', .ch '\u2019', .ch '\'', .ch '`', .ch '\u00b4']⟩) ⬝ (Re.rep 2 20 (Re.word)))) ⬝ (.star true (Re.space)) ⬝ (.set ⟨false, false, [.ch ',', .ch '.', .space]⟩) ⬝ (.star true (Re.space)) ⬝ (.behind true [⟨false, false, [.ch 'V']⟩, ⟨false, false, [.ch 'o']⟩, ⟨false, false, [.ch 'l']⟩, ⟨false, false, [.ch 'u']⟩, ⟨false, false, [.ch 'm']⟩, ⟨false, false, [.ch 'e']⟩, ⟨false, false, [.space]⟩]) ⬝ (.set ⟨false, false, [.authUpper]⟩) ⬝ (Re.rep 0 4 ((.star true (Re.space)) ⬝ (Re.rep 1 2 (.set ⟨false, false, [.ch '.', .ch '\'', .ch '\u2019', .space, .ch '-']⟩)) ⬝ (.star true (Re.space)) ⬝ (.set ⟨false, false, [.authUpper]⟩))) ⬝ (Re.rep 0 2 (Re.ch '.')) ⬝ Re.opt ((.star true (Re.space)) ⬝ (Re.opt (Re.ch ',')) ⬝ (.star true (Re.space)) ⬝ (Re.opt (Re.ch '(')) ⬝ (.set ⟨false, false, [.ch 'E', .ch 'e']⟩) ⬝ (Re.alts [.set ⟨false, false, [.ch 'D', .ch 'd']⟩, .str (py! "dited"), .str (py! "ditor")]) ⬝ (Re.opt (Re.ch '.')) ⬝ (Re.opt (Re.space)) ⬝ (Re.opt (Re.ch ')')) ⬝ (Re.rep 0 2 (.set ⟨false, false, [.ch '.', .ch ',']⟩)))])) ⬝ Re.opt ((.star true (Re.space)) ⬝ (.set ⟨false, false, [.ch ',', .space]⟩) ⬝ (.star true (Re.space)) ⬝ (Re.alts [(.set ⟨false, false, [.ch 'A', .ch 'a']⟩) ⬝ (.set ⟨false, false, [.ch 'N', .ch 'n']⟩) ⬝ (.set ⟨false, false, [.ch 'D', .ch 'd', .ch 's', .ch 'S']⟩), Re.ch '&']) ⬝ (Re.plus (Re.space)) ⬝ .group G.mult_auth_sub (Re.alts [(Re.opt ((.set ⟨false, false, [.authUpper]⟩) ⬝ (Re.rep 2 20 (Re.word)) ⬝ (Re.plus (Re.space)))) ⬝ (.behind true [⟨false, false, [.ch 'V']⟩, ⟨false, false, [.ch 'o']⟩, ⟨false, false, [.ch 'l']⟩, ⟨false, false, [.ch 'u']⟩, ⟨false, false, [.ch 'm']⟩, ⟨false, false, [.ch 'e']⟩, ⟨false, false, [.space]⟩]) ⬝ (.set ⟨false, false, [.authUpper]⟩) ⬝ (Re.rep 0 4 ((.star true (Re.space)) ⬝ (Re.rep 1 3 (.set ⟨false, false, [.ch '.', .ch '\'', .ch '\u2019', .space, .ch '-']⟩)) ⬝ (.star true (Re.space)) ⬝ (.set ⟨false, false, [.authUpper]⟩))) ⬝ (Re.rep 1 2 (.set ⟨false, false, [.ch '.', .space, .ch '-']⟩)) ⬝ (.star true (Re.space)) ⬝ (Re.opt ((.set ⟨false, false, [.authUpper]⟩) ⬝ (Re.rep 2 20 (Re.word)) ⬝ (Re.plus (Re.space)))) ⬝ (Re.opt ((.look true (.str (py! "at"))) ⬝ (Re.rep 1 3 (Re.word)) ⬝ (.behind true [⟨false, false, [.ch 'a']⟩, ⟨false, false, [.ch 'n']⟩, ⟨false, false, [.ch 'd']⟩]) ⬝ Re.alts [(.set ⟨false, false, [.ch '\u2019', .ch '\'', .ch '`', .ch '\u00b4', .ch '-']⟩) ⬝ (Re.opt (Re.space)), Re.space])) ⬝ (.look true (Re.alts [.str (py! "Supergravity"), .str (py! "Collaboration"), .str (py! "Theoretical"), .str (py! "Appendix"), .str (py! "Phys"), .str (py! "Paper"), .str (py! "Energy")])) ⬝ (.set ⟨false, false, [.authUpper]⟩) ⬝ (Re.alts [(.set ⟨false, false, [.ch 'r', .ch 'R']⟩) ⬝ (Re.ch '.'), Re.rep 1 20 (Re.word)]) ⬝ (Re.opt ((.set ⟨false, false, [.ch '-', .ch '\u2019', .ch '\'', .ch '`', .ch '\u00b4']⟩) ⬝ (Re.rep 1 20 (.set ⟨false, false, [.word, .ch '\u2019', .ch '\'']⟩)))) ⬝ (Re.opt (.set ⟨false, false, [.ch '\u2019', .ch '\'']⟩)) ⬝ Re.opt ((.star true (Re.space)) ⬝ (Re.opt (Re.ch ',')) ⬝ (.star true (Re.space)) ⬝ (Re.opt (Re.ch '(')) ⬝ (.set ⟨false, false, [.ch 'E', .ch 'e']⟩) ⬝ (Re.alts [.set ⟨false, false, [.ch 'D', .ch 'd']⟩, .str (py! "dited"), .str (py! "ditor")]) ⬝ (Re.opt (Re.ch '.')) ⬝ (Re.opt (Re.space)) ⬝ (Re.opt (Re.ch ')')) ⬝ (Re.rep 0 2 (.set ⟨false, false, [.ch '.', .ch ',']⟩))), (Re.opt ((.look true (.str (py! "at"))) ⬝ (Re.rep 1 3 (Re.word)) ⬝ (.behind true [⟨false, false, [.ch 'a']⟩, ⟨false, false, [.ch 'n']⟩, ⟨false, false, [.ch 'd']⟩]) ⬝ (.behind true [⟨false, false, [.ch 'i']⟩, ⟨false, false, [.ch 'n']⟩]) ⬝ Re.alts [(.set ⟨false, false, [.ch '\u2019', .ch '\'', .ch '`', .ch '\u00b4', .ch '-']⟩) ⬝ (Re.opt (Re.space)), Re.space])) ⬝ (.look true (Re.alts [.str (py! "Supergravity"), .str (py! "Collaboration"), .str (py! "Theoretical"), .str (py! "Appendix"), .str (py! "Phys"), .str (py! "Paper"), .str (py! "Energy")])) ⬝ (.set ⟨false, false, [.authUpper]⟩) ⬝ (Re.rep 2 20 (Re.word)) ⬝ (Re.opt ((.set ⟨false, false, [.ch '-', .ch '\u2019', .ch '\'', .ch '`', .ch '\u00b4']⟩) ⬝ (Re.rep 2 20 (Re.word)))) ⬝ (.star true (Re.space)) ⬝ (.set ⟨false, false, [.ch ',', .ch '.', .space]⟩) ⬝ (.star true (Re.space)) ⬝ (.behind true [⟨false, false, [.ch 'V']⟩, ⟨false, false, [.ch 'o']⟩, ⟨false, false, [.ch 'l']⟩, ⟨false, false, [.ch 'u']⟩, ⟨false, false, [.ch 'm']⟩, ⟨false, false, [.ch 'e']⟩, ⟨false, false, [.space]⟩]) ⬝ (.set ⟨false, false, [.authUpper]⟩) ⬝ (Re.rep 0 4 ((.star true (Re.space)) ⬝ (Re.rep 1 2 (.set ⟨false, false, [.ch '.', .ch '\'', .ch '\u2019', .space, .ch '-']⟩)) ⬝ (.star true (Re.space)) ⬝ (.set ⟨false, false, [.authUpper]⟩))) ⬝ (Re.rep 0 2 (Re.ch '.')) ⬝ Re.opt ((.star true (Re.space)) ⬝ (Re.opt (Re.ch ',')) ⬝ (.star true (Re.space)) ⬝ (Re.opt (Re.ch '(')) ⬝ (.set ⟨false, false, [.ch 'E', .ch 'e']⟩) ⬝ (Re.alts [.set ⟨false, false, [.ch 'D', .ch 'd']⟩, .str (py! "dited"), .str (py! "ditor")]) ⬝ (Re.opt (Re.ch '.')) ⬝ (Re.opt (Re.space)) ⬝ (Re.opt (Re.ch ')')) ⬝ (Re.rep 0 2 (.set ⟨false, false, [.ch '.', .ch ',']⟩)))])))) ⬝ Re.opt (.group G.et ((.star true (Re.space)) ⬝ (.set ⟨false, false, [.ch ',', .space]⟩) ⬝ (.star true (Re.space)) ⬝ (.set ⟨false, false, [.ch 'E', .ch 'e']⟩) ⬝ (.set ⟨false, false, [.ch 'T', .ch 't']⟩) ⬝ (Re.alts [(.set ⟨false, false, [.ch ',', .ch '.']⟩) ⬝ (.star true (Re.space)), (Re.opt (.set ⟨false, false, [.ch ',', .ch '.']⟩)) ⬝ (Re.plus (Re.space))]) ⬝ (.set ⟨false, false, [.ch 'A', .ch 'a']⟩) ⬝ (.set ⟨false, false, [.ch 'L', .ch 'l']⟩) ⬝ (Re.opt (.set ⟨false, false, [.ch ',', .ch '.']⟩)) ⬝ (Re.opt (.set ⟨false, false, [.ch ',', .ch '.']⟩))))])) ⬝ (Re.opt (.group G.ee ((.star true (Re.space)) ⬝ (.set ⟨false, false, [.ch ',', .space]⟩) ⬝ (.star true (Re.space)) ⬝ (Re.opt (Re.ch '(')) ⬝ (.set ⟨false, false, [.ch 'E', .ch 'e']⟩) ⬝ (Re.alts [(.set ⟨false, false, [.ch 'D', .ch 'd']⟩) ⬝ (Re.ch 's'), .str (py! "ditors")]) ⬝ (Re.opt (Re.ch '.')) ⬝ (Re.opt (Re.ch ')')) ⬝ (Re.rep 0 2 (.set ⟨false, false, [.ch '.', .ch ',']⟩))))) ⬝ (Re.opt (Re.ch ')')) ⬝ (.look false (.set ⟨false, false, [.space, .ch ',', .ch '.', .ch ';', .ch ':']⟩))

/-- `refextract/authors/regexs.py:524-534 get_author_regexps` flags X
```

    ## Must be the start of the line, a space (or an opening bracket in very few cases)
     (?:^|\s+|\()
     ## Look for editor notation before the author
     (?P<es>
      ## 'eds?. '     | 'ed '      | 'ed.'
      (?:(?:(?:[Ee][Dd]s?|[Ee]dited|[Ee]ditors?)((?:\.\s?)|(?:\.?\s)))
      ## 'eds?. by, ' | 'ed. by: ' | 'ed by '  | 'ed. by '| 'ed by: '
      |(?:(?:[Ee][Dd]s?|[Ee]dited|[Ee]ditions?)(?:(?:\.\s?)|(?:\.?\s))by(?:\s|([:,]\s)))
       ## '( eds?. )'  | '(ed.)'    | '(ed )'   | '( ed )' | '(ed)'
      |(?:\(\s?([Ee][Dd]s?|[Ee]dited|[Ee]ditors?)(?:(?:\.\s?)|(?:\.?\s))?\)))
     )?

  … 
```
-/
def RE_AUTH_NEAR_MISS : Re :=
  (Re.alts [.bos, Re.plus (Re.space), Re.ch '(']) ⬝ (Re.opt (.group G.es (Re.alts [(.set ⟨false, false, [.ch 'E', .ch 'e']⟩) ⬝ (Re.alts [(.set ⟨false, false, [.ch 'D', .ch 'd']⟩) ⬝ (Re.opt (Re.ch 's')), .str (py! "dited"), (.str (py! "ditor")) ⬝ (Re.opt (Re.ch 's'))]) ⬝ Re.alts [(Re.ch '.') ⬝ (Re.opt (Re.space)), (Re.opt (Re.ch '.')) ⬝ Re.space], (.set ⟨false, false, [.ch 'E', .ch 'e']⟩) ⬝ (Re.alts [(.set ⟨false, false, [.ch 'D', .ch 'd']⟩) ⬝ (Re.opt (Re.ch 's')), .str (py! "dited"), (.str (py! "dition")) ⬝ (Re.opt (Re.ch 's'))]) ⬝ (Re.alts [(Re.ch '.') ⬝ (Re.opt (Re.space)), (Re.opt (Re.ch '.')) ⬝ Re.space]) ⬝ (.str (py! "by")) ⬝ Re.alts [Re.space, (.set ⟨false, false, [.ch ':', .ch ',']⟩) ⬝ Re.space], (Re.ch '(') ⬝ (Re.opt (Re.space)) ⬝ ((.set ⟨false, false, [.ch 'E', .ch 'e']⟩) ⬝ Re.alts [(.set ⟨false, false, [.ch 'D', .ch 'd']⟩) ⬝ (Re.opt (Re.ch 's')), .str (py! "dited"), (.str (py! "ditor")) ⬝ (Re.opt (Re.ch 's'))]) ⬝ (Re.opt (Re.alts [(Re.ch '.') ⬝ (Re.opt (Re.space)), (Re.opt (Re.ch '.')) ⬝ Re.space])) ⬝ (Re.ch ')')]))) ⬝ (.group G.author_names (Re.alts [(Re.opt ((.set ⟨false, false, [.range 'A' 'Z']⟩) ⬝ (Re.rep 0 4 ((.star true (Re.space)) ⬝ (Re.rep 1 2 (.set ⟨false, false, [.ch '.', .ch '\'', .ch '\u2019', .ch '-']⟩)) ⬝ (.star true (Re.space)) ⬝ (.set ⟨false, false, [.range 'A' 'Z']⟩))) ⬝ (.set ⟨false, false, [.ch '.', .space]⟩) ⬝ (.star true (Re.space)))) ⬝ (.set ⟨false, false, [.range 'A' 'Z']⟩) ⬝ (Re.rep 2 20 (.set ⟨true, false, [.range '0' '9', .ch '_', .ch '.', .space]⟩)) ⬝ (Re.alts [(.set ⟨false, false, [.ch ',', .ch '.']⟩) ⬝ (.star true (Re.space)), (Re.opt (.set ⟨false, false, [.ch ',', .ch '.']⟩)) ⬝ (Re.plus (Re.space))]) ⬝ (Re.opt ((.set ⟨false, false, [.range 'A' 'Z']⟩) ⬝ (Re.rep 0 4 ((.star true (Re.space)) ⬝ (Re.rep 1 2 (.set ⟨false, false, [.ch '.', .ch '\'', .ch '\u2019', .ch '-']⟩)) ⬝ (.star true (Re.space)) ⬝ (.set ⟨false, false, [.range 'A' 'Z']⟩))) ⬝ (.set ⟨false, false, [.ch '.', .space]⟩) ⬝ (.star true (Re.space)))) ⬝ (Re.opt (.group G.multi_surs ((Re.alts [(.set ⟨false, false, [.ch 'A', .ch 'a']⟩) ⬝ (.set ⟨false, false, [.ch 'N', .ch 'n']⟩) ⬝ (.set ⟨false, false, [.ch 'D', .ch 'd']⟩), Re.ch '&']) ⬝ (Re.plus (Re.space)) ⬝ (.set ⟨false, false, [.range 'A' 'Z']⟩) ⬝ (Re.rep 3 20 (.set ⟨true, false, [.range '0' '9', .ch '_', .ch '.', .space]⟩)) ⬝ (Re.alts [(.set ⟨false, false, [.ch ',', .ch '.']⟩) ⬝ (.star true (Re.space)), (Re.opt (.set ⟨false, false, [.ch ',', .ch '.']⟩)) ⬝ (Re.plus (Re.space))]) ⬝ Re.opt ((.set ⟨false, false, [.range 'A' 'Z']⟩) ⬝ (Re.opt ((.set ⟨false, false, [.ch ' ', .ch '-']⟩) ⬝ (.set ⟨false, false, [.range 'A' 'Z']⟩))) ⬝ (Re.plus (Re.space)))))) ⬝ (Re.opt ((.star true (Re.space)) ⬝ (Re.opt (.set ⟨false, false, [.ch ',', .space]⟩)) ⬝ (.star true (Re.space)) ⬝ (Re.opt (Re.ch '(')) ⬝ (.set ⟨false, false, [.ch 'E', .ch 'e']⟩) ⬝ (Re.alts [.set ⟨false, false, [.ch 'D', .ch 'd']⟩, .str (py! "dited"), .str (py! "ditor")]) ⬝ (Re.opt (Re.ch '.')) ⬝ (Re.opt (Re.space)) ⬝ (Re.opt (Re.ch ')')) ⬝ (Re.rep 0 2 (.set ⟨false, false, [.ch '.', .ch ',']⟩)))) ⬝ (.group G.et2 ((.set ⟨false, false, [.ch 'E', .ch 'e']⟩) ⬝ (.set ⟨false, false, [.ch 'T', .ch 't']⟩) ⬝ (Re.alts [(.set ⟨false, false, [.ch ',', .ch '.']⟩) ⬝ (.star true (Re.space)), (Re.opt (.set ⟨false, false, [.ch ',', .ch '.']⟩)) ⬝ (Re.plus (Re.space))]) ⬝ (.set ⟨false, false, [.ch 'A', .ch 'a']⟩) ⬝ (.set ⟨false, false, [.ch 'L', .ch 'l']⟩) ⬝ (Re.opt (.set ⟨false, false, [.ch ',', .ch '.']⟩)) ⬝ (Re.opt (.set ⟨false, false, [.ch ',', .ch '.']⟩)))) ⬝ Re.opt ((.star true (Re.space)) ⬝ (Re.opt (.set ⟨false, false, [.ch ',', .space]⟩)) ⬝ (.star true (Re.space)) ⬝ (Re.opt (Re.ch '(')) ⬝ (.set ⟨false, false, [.ch 'E', .ch 'e']⟩) ⬝ (Re.alts [.set ⟨false, false, [.ch 'D', .ch 'd']⟩, .str (py! "dited"), .str (py! "ditor")]) ⬝ (Re.opt (Re.ch '.')) ⬝ (Re.opt (Re.space)) ⬝ (Re.opt (Re.ch ')')) ⬝ (Re.rep 0 2 (.set ⟨false, false, [.ch '.', .ch ',']⟩))), (Re.alts [(Re.plus ((Re.rep 1 5 ((.set ⟨false, false, [.range 'A' 'Z']⟩) ⬝ Re.alts [(Re.ch '.') ⬝ (Re.opt (Re.space)), (Re.opt (Re.ch '.')) ⬝ (Re.plus (Re.space)), Re.ch '-'])) ⬝ Re.plus ((Re.plus (.set ⟨true, false, [.space, .ch '_', .ch '<', .ch '>', .range '0' '9']⟩)) ⬝ Re.alts [(.set ⟨false, false, [.ch ',', .ch '.']⟩) ⬝ (.star true (Re.space)), (Re.opt (.set ⟨false, false, [.ch ',', .ch '.']⟩)) ⬝ (Re.plus (Re.space))]))) ⬝ .eos, .group G.sur_initial_auth ((Re.opt ((.look true (.str (py! "at"))) ⬝ (Re.rep 1 3 (Re.word)) ⬝ (.behind true [⟨false, false, [.ch 'a']⟩, ⟨false, false, [.ch 'n']⟩, ⟨false, false, [.ch 'd']⟩]) ⬝ (.behind true [⟨false, false, [.ch 'i']⟩, ⟨false, false, [.ch 'n']⟩]) ⬝ Re.alts [(.set ⟨false, false, [.ch '\u2019', .ch '\'', .ch '`', .ch '\u00b4', .ch '-']⟩) ⬝ (Re.opt (Re.space)), Re.space])) ⬝ (.look true (Re.alts [.str (py! "Supergravity"), .str (py! "Collaboration"), .str (py! "Theoretical"), .str (py! "Appendix"), .str (py! "Phys"), .str (py! "Paper"), .str (py! "Energy")])) ⬝ (.set ⟨false, false, [.authUpper]⟩) ⬝ (Re.rep 2 20 (Re.word)) ⬝ (Re.opt ((.set ⟨false, false, [.ch '-', .ch '\u2019', .ch '\'', .ch '`', .ch '\u00b4']⟩) ⬝ (Re.rep 2 20 (Re.word)))) ⬝ (.star true (Re.space)) ⬝ (.set ⟨false, false, [.ch ',', .ch '.', .space]⟩) ⬝ (.star true (Re.space)) ⬝ (.behind true [⟨false, false, [.ch 'V']⟩, ⟨false, false, [.ch 'o']⟩, ⟨false, false, [.ch 'l']⟩, ⟨false, false, [.ch 'u']⟩, ⟨false, false, [.ch 'm']⟩, ⟨false, false, [.ch 'e']⟩, ⟨false, false, [.space]⟩]) ⬝ (.set ⟨false, false, [.authUpper]⟩) ⬝ (Re.rep 0 4 ((.star true (Re.space)) ⬝ (Re.rep 1 2 (.set ⟨false, false, [.ch '.', .ch '\'', .ch '\u2019', .space, .ch '-']⟩)) ⬝ (.star true (Re.space)) ⬝ (.set ⟨false, false, [.authUpper]⟩))) ⬝ (Re.rep 0 2 (Re.ch '.')) ⬝ Re.opt ((.star true (Re.space)) ⬝ (Re.opt (Re.ch ',')) ⬝ (.star true (Re.space)) ⬝ (Re.opt (Re.ch '(')) ⬝ (.set ⟨false, false, [.ch 'E', .ch 'e']⟩) ⬝ (Re.alts [.set ⟨false, false, [.ch 'D', .ch 'd']⟩, .str (py! "dited"), .str (py! "ditor")]) ⬝ (Re.opt (Re.ch '.')) ⬝ (Re.opt (Re.space)) ⬝ (Re.opt (Re.ch ')')) ⬝ (Re.rep 0 2 (.set ⟨false, false, [.ch '.', .ch ',']⟩))))]) ⬝ (.group G.multi_auth ((.star true ((.star true (Re.space)) ⬝ (.set ⟨false, false, [.ch ',', .space]⟩) ⬝ (.star true (Re.space)) ⬝ Re.alts [(Re.plus ((Re.rep 1 5 ((.set ⟨false, false, [.range 'A' 'Z']⟩) ⬝ Re.alts [(Re.ch '.') ⬝ (Re.opt (Re.space)), (Re.opt (Re.ch '.')) ⬝ (Re.plus (Re.space)), Re.ch '-'])) ⬝ Re.plus ((Re.plus (.set ⟨true, false, [.space, .ch '_', .ch '<', .ch '>', .range '0' '9']⟩)) ⬝ Re.alts [(.set ⟨false, false, [.ch ',', .ch '.']⟩) ⬝ (.star true (Re.space)), (Re.opt (.set ⟨false, false, [.ch ',', .ch '.']⟩)) ⬝ (Re.plus (Re.space))]))) ⬝ .eos, (Re.opt ((.look true (.str (py! "at"))) ⬝ (Re.rep 1 3 (Re.word)) ⬝ (.behind true [⟨false, false, [.ch 'a']⟩, ⟨false, false, [.ch 'n']⟩, ⟨false, false, [.ch 'd']⟩]) ⬝ (.behind true [⟨false, false, [.ch 'i']⟩, ⟨false, false, [.ch 'n']⟩]) ⬝ Re.alts [(.set ⟨false, false, [.ch '\u2019', .ch '\'', .ch '`', .ch '\u00b4', .ch '-']⟩) ⬝ (Re.opt (Re.space)), Re.space])) ⬝ (.look true (Re.alts [.str (py! "Supergravity"), .str (py! "Collaboration"), .str (py! "Theoretical"), .str (py! "Appendix"), .str (py! "Phys"), .str (py! "Paper"), .str (py! "Energy")])) ⬝ (.set ⟨false, false, [.authUpper]⟩) ⬝ (Re.rep 2 20 (Re.word)) ⬝ (Re.opt ((.set ⟨false, false, [.ch '-', .ch '\u2019', .ch '\'', .ch '`', .ch '\u00b4']⟩) ⬝ (Re.rep 2 20 (Re.word)))) ⬝ (.star true (Re.space)) ⬝ (.set ⟨false, false, [.ch ',', .ch '.', .space]⟩) ⬝ (.star true (Re.space)) ⬝ (.behind true [⟨false, false, [.ch 'V']⟩, ⟨false, false, [.ch 'o']⟩, ⟨false, false, [.ch 'l']⟩, ⟨false, false, [.ch 'u']⟩, ⟨false, false, [.ch 'm']⟩, ⟨false, false, [.ch 'e']⟩, ⟨false, false, [.space]⟩]) ⬝ (.set ⟨false, false, [.authUpper]⟩) ⬝ (Re.rep 0 4 ((.star true (Re.space)) ⬝ (Re.rep 1 2 (.set ⟨false, false, [.ch '.', .ch '\'', .ch '\u2019', .space, .ch '-']⟩)) ⬝ (.star true (Re.space)) ⬝ (.set ⟨false, false, [.authUpper]⟩))) ⬝ (Re.rep 0 2 (Re.ch '.')) ⬝ Re.opt ((.star true (Re.space)) ⬝ (Re.opt (Re.ch ',')) ⬝ (.star true (Re.space)) ⬝ (Re.opt (Re.ch '(')) ⬝ (.set ⟨false, false, [.ch 'E', .ch 'e']⟩) ⬝ (Re.alts [.set ⟨false, false, [.ch 'D', .ch 'd']⟩, .str (py! "dited"), .str (py! "ditor")]) ⬝ (Re.opt (Re.ch '.')) ⬝ (Re.opt (Re.space)) ⬝ (Re.opt (Re.ch ')')) ⬝ (Re.rep 0 2 (.set ⟨false, false, [.ch '.', .ch ',']⟩)))])) ⬝ Re.opt ((.star true (Re.space)) ⬝ (.set ⟨false, false, [.ch ',', .space]⟩) ⬝ (.star true (Re.space)) ⬝ (Re.alts [(.set ⟨false, false, [.ch 'A', .ch 'a']⟩) ⬝ (.set ⟨false, false, [.ch 'N', .ch 'n']⟩) ⬝ (.set ⟨false, false, [.ch 'D', .ch 'd', .ch 's', .ch 'S']⟩), Re.ch '&']) ⬝ (Re.plus (Re.space)) ⬝ .group G.mult_auth_sub (Re.alts [(Re.plus ((Re.rep 1 5 ((.set ⟨false, false, [.range 'A' 'Z']⟩) ⬝ Re.alts [(Re.ch '.') ⬝ (Re.opt (Re.space)), (Re.opt (Re.ch '.')) ⬝ (Re.plus (Re.space)), Re.ch '-'])) ⬝ Re.plus ((Re.plus (.set ⟨true, false, [.space, .ch '_', .ch '<', .ch '>', .range '0' '9']⟩)) ⬝ Re.alts [(.set ⟨false, false, [.ch ',', .ch '.']⟩) ⬝ (.star true (Re.space)), (Re.opt (.set ⟨false, false, [.ch ',', .ch '.']⟩)) ⬝ (Re.plus (Re.space))]))) ⬝ .eos, (Re.opt ((.look true (.str (py! "at"))) ⬝ (Re.rep 1 3 (Re.word)) ⬝ (.behind true [⟨false, false, [.ch 'a']⟩, ⟨false, false, [.ch 'n']⟩, ⟨false, false, [.ch 'd']⟩]) ⬝ (.behind true [⟨false, false, [.ch 'i']⟩, ⟨false, false, [.ch 'n']⟩]) ⬝ Re.alts [(.set ⟨false, false, [.ch '\u2019', .ch '\'', .ch '`', .ch '\u00b4', .ch '-']⟩) ⬝ (Re.opt (Re.space)), Re.space])) ⬝ (.look true (Re.alts [.str (py! "Supergravity"), .str (py! "Collaboration"), .str (py! "Theoretical"), .str (py! "Appendix"), .str (py! "Phys"), .str (py! "Paper"), .str (py! "Energy")])) ⬝ (.set ⟨false, false, [.authUpper]⟩) ⬝ (Re.rep 2 20 (Re.word)) ⬝ (Re.opt ((.set ⟨false, false, [.ch '-', .ch '\u2019', .ch '\'', .ch '`', .ch '\u00b4']⟩) ⬝ (Re.rep 2 20 (Re.word)))) ⬝ (.star true (Re.space)) ⬝ (.set ⟨false, false, [.ch ',', .ch '.', .space]⟩) ⬝ (.star true (Re.space)) ⬝ (.behind true [⟨false, false, [.ch 'V']⟩, ⟨false, false, [.ch 'o']⟩, ⟨false, false, [.ch 'l']⟩, ⟨false, false, [.ch 'u']⟩, ⟨false, false, [.ch 'm']⟩, ⟨false, false, [.ch 'e']⟩, ⟨false, false, [.space]⟩]) ⬝ (.set ⟨false, false, [.authUpper]⟩) ⬝ (Re.rep 0 4 ((.star true (Re.space)) ⬝ (Re.rep 1 2 (.set ⟨false, false, [.ch '.', .ch '\'', .ch '\u2019', .space, .ch '-']⟩)) ⬝ (.star true (Re.space)) ⬝ (.set ⟨false, false, [.authUpper]⟩))) ⬝ (Re.rep 0 2 (Re.ch '.')) ⬝ Re.opt ((.star true (Re.space)) ⬝ (Re.opt (Re.ch ',')) ⬝ (.star true (Re.space)) ⬝ (Re.opt (Re.ch '(')) ⬝ (.set ⟨false, false, [.ch 'E', .ch 'e']⟩) ⬝ (Re.alts [.set ⟨false, false, [.ch 'D', .ch 'd']⟩, .str (py! "dited"), .str (py! "ditor")]) ⬝ (Re.opt (Re.ch '.')) ⬝ (Re.opt (Re.space)) ⬝ (Re.opt (Re.ch ')')) ⬝ (Re.rep 0 2 (.set ⟨false, false, [.ch '.', .ch ',']⟩)))])))) ⬝ Re.opt (.group G.et ((.star true (Re.space)) ⬝ (.set ⟨false, false, [.ch ',', .space]⟩) ⬝ (.star true (Re.space)) ⬝ (.set ⟨false, false, [.ch 'E', .ch 'e']⟩) ⬝ (.set ⟨false, false, [.ch 'T', .ch 't']⟩) ⬝ (Re.alts [(.set ⟨false, false, [.ch ',', .ch '.']⟩) ⬝ (.star true (Re.space)), (Re.opt (.set ⟨false, false, [.ch ',', .ch '.']⟩)) ⬝ (Re.plus (Re.space))]) ⬝ (.set ⟨false, false, [.ch 'A', .ch 'a']⟩) ⬝ (.set ⟨false, false, [.ch 'L', .ch 'l']⟩) ⬝ (Re.opt (.set ⟨false, false, [.ch ',', .ch '.']⟩)) ⬝ (Re.opt (.set ⟨false, false, [.ch ',', .ch '.']⟩))))])) ⬝ (Re.opt (.group G.ee ((.star true (Re.space)) ⬝ (.set ⟨false, false, [.ch ',', .space]⟩) ⬝ (.star true (Re.space)) ⬝ (Re.opt (Re.ch '(')) ⬝ (.set ⟨false, false, [.ch 'E', .ch 'e']⟩) ⬝ (Re.alts [(.set ⟨false, false, [.ch 'D', .ch 'd']⟩) ⬝ (Re.ch 's'), .str (py! "ditors")]) ⬝ (Re.opt (Re.ch '.')) ⬝ (Re.opt (Re.ch ')')) ⬝ (Re.rep 0 2 (.set ⟨false, false, [.ch '.', .ch ',']⟩))))) ⬝ (Re.opt (Re.ch ')')) ⬝ (.look false (.set ⟨false, false, [.space, .ch ',', .ch '.', .ch ';', .ch ':']⟩))

/-- `refextract/authors/regexs.py:371-371 re_etal` flags I
```
[Ee][Tt](?:(?:(?:,|\.)\s*)|(?:(?:,|\.)?\s+))[Aa][Ll][,\.]?[,\.]?
```
-/
def re_etal : Re :=
  (.set ⟨false, true, [.ch 'E', .ch 'e']⟩) ⬝ (.set ⟨false, true, [.ch 'T', .ch 't']⟩) ⬝ (Re.alts [(.set ⟨false, false, [.ch ',', .ch '.']⟩) ⬝ (.star true (Re.space)), (Re.opt (.set ⟨false, false, [.ch ',', .ch '.']⟩)) ⬝ (Re.plus (Re.space))]) ⬝ (.set ⟨false, true, [.ch 'A', .ch 'a']⟩) ⬝ (.set ⟨false, true, [.ch 'L', .ch 'l']⟩) ⬝ (Re.opt (.set ⟨false, false, [.ch ',', .ch '.']⟩)) ⬝ (Re.opt (.set ⟨false, false, [.ch ',', .ch '.']⟩))

/-- `refextract/authors/regexs.py:386-393 re_ed_notation` flags I
```

    (?:
        \(?
        (?:[Ee][Dd]|[Ee]dited|[Ee]ditor)\.?
        \s?
        \)?
        [\.\,]{0,2}
    )
```
-/
def re_ed_notation : Re :=
  (Re.strI (py! "\u000a    \u000a        ")) ⬝ (Re.opt (Re.ch '(')) ⬝ (Re.strI (py! "\u000a        ")) ⬝ (.set ⟨false, true, [.ch 'E', .ch 'e']⟩) ⬝ (Re.alts [.set ⟨false, true, [.ch 'D', .ch 'd']⟩, Re.strI (py! "dited"), Re.strI (py! "ditor")]) ⬝ (Re.opt (Re.ch '.')) ⬝ (Re.strI (py! "\u000a        ")) ⬝ (Re.opt (Re.space)) ⬝ (Re.strI (py! "\u000a        ")) ⬝ (Re.opt (Re.ch ')')) ⬝ (Re.strI (py! "\u000a        ")) ⬝ (Re.rep 0 2 (.set ⟨false, false, [.ch '.', .ch ',']⟩)) ⬝ (Re.strI (py! "\u000a    "))

/-- `refextract/references/engine.py:137`
```
[XxVvIi]+$
```
-/
def roman_end : Re :=
  (Re.plus (.set ⟨false, false, [.ch 'X', .ch 'x', .ch 'V', .ch 'v', .ch 'I', .ch 'i']⟩)) ⬝ .eos

/-- `refextract/references/engine.py:152`
```
\d{1,2}$
```
-/
def two_digits_end : Re :=
  (Re.rep 1 2 (Re.digit)) ⬝ .eos

/-- `refextract/references/engine.py:156`
```
(19|20)\d{2}$
```
-/
def year_end : Re :=
  (Re.alts [.str (py! "19"), .str (py! "20")]) ⬝ (Re.times 2 (Re.digit)) ⬝ .eos

/-- `refextract/references/engine.py:176`
```
^(?P<name>[A-Z-]+)(?P<nums>[\d-]+)$
```
-/
def re_report : Re :=
  .bos ⬝ (.group G.name (Re.plus (.set ⟨false, false, [.range 'A' 'Z', .ch '-']⟩))) ⬝ (.group G.nums (Re.plus (.set ⟨false, false, [.digit, .ch '-']⟩))) ⬝ .eos

/-- `refextract/references/engine.py:282` flags I
```
(\d+)([A-Z])
```
-/
def volume_re : Re :=
  (.group 1 (Re.plus (Re.digit))) ⬝ (.group 2 (.set ⟨false, true, [.range 'A' 'Z']⟩))

/-- `refextract/references/engine.py:739`
```
[a-zA-Z]{4,}
```
-/
def four_letters : Re :=
  Re.atLeast 4 (.set ⟨false, false, [.range 'a' 'z', .range 'A' 'Z']⟩)

/-- `refextract/references/engine.py:816`
```
[ [{(a-zA-Z0-9]
```
-/
def cut_split : Re :=
  .set ⟨false, false, [.ch ' ', .ch '[', .ch '{', .ch '(', .range 'a' 'z', .range 'A' 'Z', .range '0' '9']⟩

/-- `refextract/references/tag.py:855`
```
<cds\.[A-Z]+>[^<]*</cds\.[A-Z]+>|<cds\.[A-Z]+ />
```
-/
def re_tag : Re :=
  (.str (py! "<cds.")) ⬝ Re.alts [(Re.plus (.set ⟨false, false, [.range 'A' 'Z']⟩)) ⬝ (Re.ch '>') ⬝ (.star true (.set ⟨true, false, [.ch '<']⟩)) ⬝ (.str (py! "</cds.")) ⬝ (Re.plus (.set ⟨false, false, [.range 'A' 'Z']⟩)) ⬝ (Re.ch '>'), (Re.plus (.set ⟨false, false, [.range 'A' 'Z']⟩)) ⬝ (.str (py! " />"))]

/-- `refextract/documents/text.py:248`
```
^\s*\f\s*$
```
-/
def p_break : Re :=
  .bos ⬝ (.star true (Re.space)) ⬝ (Re.ch '\u000c') ⬝ (.star true (Re.space)) ⬝ .eos

/-- `refextract/documents/text.py:269`
```
([A-Za-z0-9-]+)
```
-/
def p_wordSearch : Re :=
  Re.plus (.set ⟨false, false, [.range 'A' 'Z', .range 'a' 'z', .range '0' '9', .ch '-']⟩)

/-- `refextract/documents/pdf.py:65`
```
^\s*\f(.+)$
```
-/
def p_break_in_line : Re :=
  .bos ⬝ (.star true (Re.space)) ⬝ (Re.ch '\u000c') ⬝ (.group 1 (Re.plus (Re.any))) ⬝ .eos

/-- `refextract/references/text.py:228`
```
[a-z]
```
-/
def lower_case_start : Re :=
  .set ⟨false, false, [.range 'a' 'z']⟩

/-- `refextract/references/text.py:229`
```
[,&-]$
```
-/
def continuing_line_markers : Re :=
  (.set ⟨false, false, [.ch ',', .ch '&', .ch '-']⟩) ⬝ .eos

/-- `refextract/references/text.py:317`
```
"([^"]+),"
```
-/
def quoted_comma : Re :=
  (Re.ch '"') ⬝ (.group 1 (Re.plus (.set ⟨true, false, [.ch '"']⟩))) ⬝ (.str (py! ",\""))

/-- `refextract/references/kbs.py:302`
```
^\*{5}\s*(.+)\s*\*{5}$
```
-/
def re_institute_name : Re :=
  .bos ⬝ (Re.times 5 (Re.ch '*')) ⬝ (.star true (Re.space)) ⬝ (.group 1 (Re.plus (Re.any))) ⬝ (.star true (Re.space)) ⬝ (Re.times 5 (Re.ch '*')) ⬝ .eos

/-- `refextract/references/kbs.py:310`
```
^\<(.+)\>$
```
-/
def re_numeration_pattern : Re :=
  .bos ⬝ (Re.ch '<') ⬝ (.group 1 (Re.plus (Re.any))) ⬝ (Re.ch '>') ⬝ .eos

end Rx

end Py
