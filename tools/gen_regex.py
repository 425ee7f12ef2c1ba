#!/usr/bin/env python3
"""Translate refextract's regular expressions to Lean syntax trees.

The sources under /repo are read as text and evaluated by a tiny interpreter for
constant string expressions (nothing of /repo is imported or executed).  The
patterns are parsed with CPython's own `re._parser` and printed as terms of the
Lean type `Py.Re`.  Usage:  gen_regex.py /repo OUTPUT_DIR
"""
import ast
import re
import sys
from re import _parser as P, _constants as C

REPO, OUT = sys.argv[1], sys.argv[2]
FLAGS = {"VERBOSE": re.X, "X": re.X, "UNICODE": re.U, "U": re.U,
         "IGNORECASE": re.I, "I": re.I}

# holes: private-use characters standing for run-time parameters
H_YEARS, H_PREFIX, H_YEAR, H_UPPER = "", "", "", ""


class Compiled:
    def __init__(self, pattern, flags):
        self.pattern, self.flags = pattern, flags


class NotConst(Exception):
    pass


def optional_spaces(word):
    # regexs.py:_create_regex_pattern_with_optional_spaces
    return "".join(ch if ch.isspace() else ch + r"\s*" for ch in word)


class Interp:
    """Evaluates constant expressions of one module."""

    def __init__(self, path, env=None):
        self.tree = ast.parse(open(path, encoding="utf-8").read())
        self.env = dict(env or {})
        self.lines = {}
        self.funcs = {n.name: n for n in self.tree.body if isinstance(n, ast.FunctionDef)}

    def run(self):
        self.block(self.tree.body)
        return self

    def block(self, body):
        for st in body:
            if isinstance(st, ast.Assign) and len(st.targets) == 1 and isinstance(st.targets[0], ast.Name):
                name = st.targets[0].id
                if name in self.env.get("__fixed__", ()):
                    continue
                try:
                    self.env[name] = self.ev(st.value)
                    self.lines[name] = (st.lineno, st.end_lineno)
                except NotConst:
                    pass
            elif isinstance(st, ast.For) and isinstance(st.target, ast.Name):
                try:
                    seq = self.ev(st.iter)
                except NotConst:
                    continue
                for x in seq:
                    self.env[st.target.id] = x
                    self.block(st.body)
            elif isinstance(st, ast.Expr) and isinstance(st.value, ast.Call) \
                    and isinstance(st.value.func, ast.Attribute) and st.value.func.attr == "append" \
                    and isinstance(st.value.func.value, ast.Name):
                try:
                    lst = self.env[st.value.func.value.id]
                    lst.append(self.ev(st.value.args[0]))
                except (NotConst, KeyError):
                    pass
            elif isinstance(st, ast.Return) and st.value is not None:
                try:
                    self.env["__return__"] = self.ev(st.value)
                except NotConst:
                    pass

    def call(self, fname, **env):
        """Evaluate a function body on constants."""
        sub = Interp.__new__(Interp)
        sub.tree, sub.funcs, sub.lines = self.tree, self.funcs, {}
        sub.env = dict(self.env)
        sub.env.update(env)
        sub.env["__fixed__"] = tuple(env)
        f = self.funcs[fname]
        sub.block(f.body)
        self.lines[fname] = (f.lineno, f.end_lineno)
        return sub.env

    def ev(self, e):
        if isinstance(e, ast.Constant):
            return e.value
        if isinstance(e, ast.Name):
            if e.id in self.env:
                return self.env[e.id]
            raise NotConst
        if isinstance(e, ast.BinOp):
            l, r = self.ev(e.left), self.ev(e.right)
            if isinstance(e.op, ast.Add):
                return l + r
            if isinstance(e.op, ast.BitOr):
                return l | r
            if isinstance(e.op, ast.Mod):
                return l % r
            raise NotConst
        if isinstance(e, ast.Tuple):
            return tuple(self.ev(x) for x in e.elts)
        if isinstance(e, ast.List):
            return [self.ev(x) for x in e.elts]
        if isinstance(e, ast.Dict):
            return {self.ev(k): self.ev(v) for k, v in zip(e.keys, e.values)}
        if isinstance(e, ast.Attribute) and isinstance(e.value, ast.Name) and e.value.id == "re":
            return FLAGS[e.attr]
        if isinstance(e, ast.ListComp) and len(e.generators) == 1:
            g = e.generators[0]
            out, save = [], dict(self.env)
            for x in self.ev(g.iter):
                if isinstance(g.target, ast.Name):
                    self.env[g.target.id] = x
                else:
                    raise NotConst
                out.append(self.ev(e.elt))
            self.env = save
            return out
        if isinstance(e, ast.Call):
            f = e.func
            args = []
            for a in e.args:
                if isinstance(a, ast.Starred):
                    args += list(self.ev(a.value))
                else:
                    args.append(self.ev(a))
            if isinstance(f, ast.Attribute):
                if isinstance(f.value, ast.Name) and f.value.id == "re" and f.attr == "compile":
                    return Compiled(args[0], args[1] if len(args) > 1 else 0)
                obj = self.ev(f.value)
                if f.attr in ("join", "decode", "items"):
                    return getattr(obj, f.attr)(*args)
                raise NotConst
            if isinstance(f, ast.Name):
                if f.id == "_create_regex_pattern_with_optional_spaces":
                    return optional_spaces(*args)
                if f.id == "get_uppercase_re":
                    return H_UPPER
                if f.id == "compute_years":
                    raise NotConst
                if f.id in self.funcs:
                    names = [a.arg for a in self.funcs[f.id].args.args]
                    env = dict(zip(names, args))
                    defaults = self.funcs[f.id].args.defaults
                    for n, d in zip(names[len(names) - len(defaults):], defaults):
                        env.setdefault(n, self.ev(d))
                    r = self.call(f.id, **env)
                    if "__return__" in r:
                        return r["__return__"]
            raise NotConst
        if isinstance(e, ast.IfExp):
            return self.ev(e.body) if self.ev(e.test) else self.ev(e.orelse)
        raise NotConst


# ------------------------------------------------------------------ Lean output

GROUPS = {}


def gid(name):
    if isinstance(name, int):
        return str(name)
    GROUPS.setdefault(name, 100 + len(GROUPS))
    return "G." + name


def lchar(o):
    c = chr(o)
    if c == "'":
        return "'\\''"
    if c == "\\":
        return "'\\\\'"
    if c == "\n":
        return "'\\n'"
    if c == "\t":
        return "'\\t'"
    if 32 <= o < 127:
        return "'%s'" % c
    return "'\\u%04x'" % o


def lstr(s):
    out = ""
    for c in s:
        if c in '"\\':
            out += "\\" + c
        elif 32 <= ord(c) < 127:
            out += c
        else:
            out += "\\u%04x" % ord(c)
    return '"%s"' % out


def cased(o):
    c = chr(o)
    return c.lower() != c or c.upper() != c


CATS = {C.CATEGORY_SPACE: ".space", C.CATEGORY_NOT_SPACE: ".nspace",
        C.CATEGORY_DIGIT: ".digit", C.CATEGORY_NOT_DIGIT: ".ndigit",
        C.CATEGORY_WORD: ".word", C.CATEGORY_NOT_WORD: ".nword"}


class Emit:
    def __init__(self, pattern, flags, keep):
        self.keep = set(keep)
        self.p = P.parse(pattern, flags)
        self.names = {v: k for k, v in self.p.state.groupdict.items()}
        self.flags = self.p.state.flags

    def cset(self, op, av, ic):
        """Return (neg, ic, items) for a single-character node."""
        if op is C.LITERAL:
            return (False, ic and cased(av), [".ch %s" % lchar(av)])
        if op is C.NOT_LITERAL:
            return (True, ic and cased(av), [".ch %s" % lchar(av)])
        if op is C.ANY:
            return (True, False, [".ch '\\n'"])
        if op is C.IN:
            neg, items, anyc = False, [], False
            for o, a in av:
                if o is C.NEGATE:
                    neg = True
                elif o is C.LITERAL:
                    items.append(".ch %s" % lchar(a)); anyc |= cased(a)
                elif o is C.RANGE:
                    items.append(".range %s %s" % (lchar(a[0]), lchar(a[1])))
                    anyc |= any(cased(x) for x in range(a[0], a[1] + 1))
                elif o is C.CATEGORY:
                    items.append(CATS[a])
                else:
                    raise ValueError(o)
            return (neg, ic and anyc, items)
        return None

    def lset(self, t):
        neg, ic, items = t
        return "⟨%s, %s, [%s]⟩" % (str(neg).lower(), str(ic).lower(), ", ".join(items))

    def node(self, op, av, ic):
        if op is C.LITERAL:
            c = chr(av)
            if c == H_YEARS:
                return "years"
            if c == H_PREFIX:
                return "pfx"
            if c == H_YEAR:
                return "year"
            if c == H_UPPER:
                return ".set ⟨false, false, [.authUpper]⟩"
            if ic and cased(av):
                return "Re.chI %s" % lchar(av)
            return "Re.ch %s" % lchar(av)
        if op is C.ANY:
            return "Re.any"
        if op in (C.IN, C.NOT_LITERAL):
            t = self.cset(op, av, ic)
            if t == (False, False, [".space"]):
                return "Re.space"
            if t == (False, False, [".digit"]):
                return "Re.digit"
            if t == (False, False, [".word"]):
                return "Re.word"
            return ".set %s" % self.lset(t)
        if op is C.BRANCH:
            return "Re.alts [%s]" % ", ".join(self.seq(x, ic) for x in av[1])
        if op is C.SUBPATTERN:
            group, add, dele, p = av
            assert not add and not dele
            inner = self.seq(p, ic)
            if group is None:
                return inner
            if group in self.names:
                return ".group %s (%s)" % (gid(self.names[group]), inner)
            if group in self.keep:
                return ".group %d (%s)" % (group, inner)
            return inner
        if op in (C.MAX_REPEAT, C.MIN_REPEAT):
            lo, hi, p = av
            L = "" if op is C.MAX_REPEAT else "L"
            inner = "(%s)" % self.seq(p, ic)
            if hi is C.MAXREPEAT or hi > 1:
                if p.getwidth()[0] == 0:
                    raise ValueError("nullable repetition body")
            if hi is C.MAXREPEAT:
                if lo == 0:
                    return ".star %s %s" % ("true" if not L else "false", inner)
                if lo == 1:
                    return "Re.plus%s %s" % (L, inner)
                assert not L
                return "Re.atLeast %d %s" % (lo, inner)
            if (lo, hi) == (0, 1):
                return "Re.opt%s %s" % (L, inner)
            if lo == hi:
                return "Re.times %d %s" % (lo, inner)
            return "Re.rep%s %d %d %s" % (L, lo, hi, inner)
        if op in (C.ASSERT, C.ASSERT_NOT):
            d, p = av
            neg = "true" if op is C.ASSERT_NOT else "false"
            if d == 1:
                return ".look %s (%s)" % (neg, self.seq(p, ic))
            sets = []
            for o, a in p:
                t = self.cset(o, a, ic)
                if t is None:
                    raise ValueError("lookbehind %s" % o)
                sets.append(self.lset(t))
            return ".behind %s [%s]" % (neg, ", ".join(sets))
        if op is C.AT:
            return {C.AT_BEGINNING: ".bos", C.AT_END: ".eos", C.AT_BOUNDARY: ".wordb"}[av]
        raise ValueError(op)

    def seq(self, p, ic):
        parts, lit, liti = [], "", ""

        def flush():
            nonlocal lit, liti
            if len(lit) == 1:
                parts.append("Re.ch %s" % lchar(ord(lit)))
            elif lit:
                parts.append(".str (py! %s)" % lstr(lit))
            if len(liti) == 1:
                parts.append(self.node(C.LITERAL, ord(liti), True))
            elif liti:
                parts.append("Re.strI (py! %s)" % lstr(liti))
            lit = liti = ""

        for op, av in p:
            if op is C.LITERAL and chr(av) not in (H_YEARS, H_PREFIX, H_YEAR, H_UPPER):
                if ic:
                    liti += chr(av)
                else:
                    lit += chr(av)
                continue
            flush()
            parts.append(self.node(op, av, ic))
        flush()
        if not parts:
            return ".eps"
        out = parts[-1]
        for x in reversed(parts[:-1]):
            out = "%s ⬝ %s" % (self.par(x), self.par2(out))
        return out

    @staticmethod
    def par(x):
        return x if x in ("years", "pfx", "year") or " " not in x else "(%s)" % x

    @staticmethod
    def par2(x):
        return x if " ⬝ " in x or " " not in x else "(%s)" % x

    def term(self):
        return self.seq(self.p, bool(self.flags & re.I))


DEFS = []


def comment(pat):
    return pat.replace("-/", "- /").replace("/-", "/ -")


def emit(name, pattern, flags, src, keep=(), params="", body=None):
    t = Emit(pattern, flags, keep).term()
    shown = comment(pattern if len(pattern) < 1500 else pattern[:600] + " … ")
    fl = "".join(c for c, f in (("X", re.X), ("I", re.I)) if flags & f)
    DEFS.append((name, "/-- `%s`%s\n```\n%s\n```\n-/\ndef %s%s : Re :=\n  %s\n" % (
        src, (" flags " + fl) if fl else "", shown, name, params, t)))


def emit_list(name, items, src, params=""):
    DEFS.append((name, "/-- `%s` -/\ndef %s%s : List Re :=\n  [%s]\n" % (
        src, name, params, ",\n   ".join(items))))


def main():
    R = REPO + "/refextract/references/"
    rx = Interp(R + "regexs.py", {"arxiv_years": H_YEARS, "arxiv_years_5digits": H_YEARS,
                                  "__fixed__": ("arxiv_years", "arxiv_years_5digits")})
    rx.run()
    E = rx.env

    def src(n, i=rx, f="references/regexs.py"):
        a, b = i.lines.get(n, (0, 0))
        return "refextract/%s:%d-%d %s" % (f, a, b, n)

    # simple compiled patterns
    KEEP = {"re_extract_quoted_text": [1], "re_extract_char_class": [1],
            "re_identify_bf_before_vol": [1], "re_wash_volume_tag": [1, 2],
            "re_strip_series_and_volume_labels": [2, 4],
            "re_series_from_numeration": [1], "re_series_from_numeration_after_volume": [1],
            "re_reference_in_dest": [1], "re_num": [1], "re_tagged_citation": [1]}
    names = """re_arxiv re_arxiv_5digits RE_ARXIV_CATCHUP RE_ATLAS_CONF_PRE_2010
      RE_ATLAS_CONF_POST_2010 re_quoted re_isbn re_kb_line re_reference_in_dest
      re_regexp_character_class re_multiple_hyphens re_identify_bf_before_vol
      re_extract_quoted_text re_extract_char_class re_raw_url re_html_tagged_url
      re_recognised_numeration_title_plus_series re_numeration_no_ibid_txt re_punctuation
      re_tagged_citation re_tagged_numeration_near_line_start re_ibid
      re_series_from_numeration re_series_from_numeration_after_volume re_wash_volume_tag
      re_correct_numeration_2nd_try_ptn1 re_correct_numeration_2nd_try_ptn2
      re_correct_numeration_2nd_try_ptn3 re_correct_numeration_2nd_try_ptn4
      re_strip_series_and_volume_labels
      re_numeration_vol_page_yr re_numeration_vol_nucphys_page_yr
      re_numeration_nucphys_vol_page_yr re_numeration_vol_yr_page
      re_numeration_vol_subvol_nucphys_yr_page re_numeration_vol_nucphys_yr_subvol_page
      re_numeration_nucphys_vol_yr_page re_numeration_vol_nucphys_series_yr_page
      re_numeration_vol_series_nucphys_page_yr re_numeration_vol_nucphys_series_page_yr
      re_numeration_yr_vol_page re_doi re_hdl
      re_reference_line_bracket_markers re_reference_line_curly_bracket_markers
      re_reference_line_dot_markers re_reference_line_number_markers
      re_arxiv_notation re_num re_year_in_misc_txt""".split()
    for n in names:
        v = E[n]
        if isinstance(v, tuple):
            v = v[0]
        emit(n, v.pattern, v.flags, src(n), KEEP.get(n, []))
    for n in ("re_new_arxiv", "re_new_arxiv_5digits"):
        emit(n, E[n].pattern, E[n].flags, src(n), params=" (years : Re)")
    # PoS
    for i, p in enumerate(E["re_pos_patterns"]):
        emit("re_pos_%d" % i, p, E["re_opts"], src("re_pos_patterns"))
    emit_list("re_pos", ["re_pos_%d" % i for i in range(len(E["re_pos_patterns"]))],
              "refextract/references/regexs.py:83-87 re_pos")
    emit("re_pos_year_num", E["re_pos_year_num"], re.U, src("re_pos_year_num"))
    # old arXiv
    items = []
    for i, (pat, num) in enumerate(E["old_arxiv"].items()):
        full = r"(?<!<cds\.REPORTNUMBER>)(?<!\w)" + "(?P<name>" + pat + ")" + E["old_arxiv_numbers"]
        # factor the common suffix for readability
        t = Emit(pat, re.U | re.I, ()).term()
        items.append((pat, t, num))
    lead = Emit(r"(?<!<cds\.REPORTNUMBER>)(?<!\w)", re.U | re.I, ()).term()
    tail = Emit(E["old_arxiv_numbers"], re.U | re.I, ()).term()
    DEFS.append(("old_arxiv_lead", "/-- `refextract/references/regexs.py:241-250` lookbehinds of `compute_arxiv_re` -/\ndef old_arxiv_lead : Re :=\n  %s\n" % lead))
    DEFS.append(("old_arxiv_numbers", "/-- `%s`\n```\n%s\n```\n-/\ndef old_arxiv_numbers : Re :=\n  %s\n" % (src("old_arxiv_numbers"), E["old_arxiv_numbers"], tail)))
    DEFS.append(("old_arxiv", "/-- `%s`: name pattern and replacement name (`none`: the matched name). -/\ndef old_arxiv : List (Re × Option Str) :=\n  [%s]\n" % (
        src("old_arxiv"), ",\n   ".join("(%s, %s)" % (t, "none" if num is None else "some (py! %s)" % lstr(num)) for _, t, num in items))))
    # marker patterns with a prefix
    mp = rx.call("get_reference_line_numeration_marker_patterns", prefix=H_PREFIX, title=H_PREFIX)["patterns"]
    for i, p in enumerate(mp):
        emit("marker_pattern_%d" % i, p, re.I | re.U, src("get_reference_line_numeration_marker_patterns"), params=" (pfx : Re)")
    emit_list("marker_patterns", ["marker_pattern_%d pfx" % i for i in range(len(mp))],
              src("get_reference_line_numeration_marker_patterns"), params=" (pfx : Re)")
    # reference section titles
    env = rx.call("get_reference_section_title_patterns")
    ps = env["patterns"]
    for i, c in enumerate(ps):
        emit("section_title_pattern_%d" % i, c.pattern, c.flags, src("get_reference_section_title_patterns"))
    emit_list("section_title_patterns", ["section_title_pattern_%d" % i for i in range(len(ps))],
              src("get_reference_section_title_patterns"))
    for fn, nm in (("get_post_reference_section_title_patterns", "post_title_pattern"),
                   ("get_post_reference_section_keyword_patterns", "post_keyword_pattern")):
        ps = rx.call(fn)["compiled_patterns"]
        assert ps
        for i, c in enumerate(ps):
            emit("%s_%d" % (nm, i), c.pattern, c.flags, src(fn))
        emit_list(nm + "s", ["%s_%d" % (nm, i) for i in range(len(ps))], src(fn))
    # remove_year with the escaped year as a parameter
    for i, p in enumerate((r"\[\s*%s\s*\]", r"\(\s*%s\s*\)", r"\s*%s\s*")):
        emit("remove_year_%d" % i, p % H_YEAR, 0, "refextract/references/regexs.py:1105-1110 remove_year", params=" (year : Re)")
    # documents/text.py
    dt = Interp(REPO + "/refextract/documents/text.py").run()
    D = dt.env
    for n in """re_space_comma re_space_semicolon re_space_period re_colon_space_colon
       re_comma_space_colon re_space_closing_square_bracket re_opening_square_bracket_space
       re_hyphens re_multiple_space re_group_captured_multiple_space""".split():
        emit(n, D[n].pattern, D[n].flags, src(n, dt, "documents/text.py"))
    env = dt.call("get_url_repair_patterns")
    ps = env["pattern_list"]
    for i, c in enumerate(ps):
        emit("url_repair_pattern_%d" % i, c.pattern, c.flags, src("get_url_repair_patterns", dt, "documents/text.py"), [1])
    emit_list("url_repair_patterns", ["url_repair_pattern_%d" % i for i in range(len(ps))],
              src("get_url_repair_patterns", dt, "documents/text.py"))
    # authors/regexs.py
    au = Interp(REPO + "/refextract/authors/regexs.py").run()
    A = au.env
    src_a = lambda n: src(n, au, "authors/regexs.py")
    au.env.update(A)
    isa = au.call("get_initial_surname_author_pattern", incl_numeration=False)["__return__"]
    sia = au.call("get_surname_initial_author_pattern", incl_numeration=False)["__return__"]
    auth = au.call("make_auth_regex_str", etal=A["re_etal"], initial_surname_author=isa,
                   surname_initial_author=sia)["__return__"]
    emit("RE_AUTH", auth, re.X | re.U, src_a("make_auth_regex_str"))
    weaker = None
    for node in ast.walk(ast.parse(open(REPO + "/refextract/authors/regexs.py", encoding="utf-8").read())):
        if isinstance(node, ast.Assign) and getattr(node.targets[0], "id", "") == "re_weaker_author":
            weaker = node.value.value
    near = au.call("make_auth_regex_str", etal=A["re_etal"], initial_surname_author="(" + weaker + ")+$",
                   surname_initial_author=sia)["__return__"]
    emit("RE_AUTH_NEAR_MISS", near, re.X | re.U, "refextract/authors/regexs.py:524-534 get_author_regexps")
    emit("re_etal", A["re_etal"], re.I, src_a("re_etal"))
    emit("re_ed_notation", A["re_ed_notation"], re.I, src_a("re_ed_notation"))
    # inline patterns: (name, file, line, literal, flags, keep)
    inline = [
        ("roman_end", "references/engine.py", 137, E["re_roman_numbers"] + "$", 0, ()),
        ("two_digits_end", "references/engine.py", 152, r"\d{1,2}$", 0, ()),
        ("year_end", "references/engine.py", 156, r"(19|20)\d{2}$", 0, ()),
        ("re_report", "references/engine.py", 176, r"^(?P<name>[A-Z-]+)(?P<nums>[\d-]+)$", 0, ()),
        ("volume_re", "references/engine.py", 282, r"(\d+)([A-Z])", re.I, (1, 2)),
        ("four_letters", "references/engine.py", 739, "[a-zA-Z]{4,}", 0, ()),
        ("cut_split", "references/engine.py", 816, "[ [{(a-zA-Z0-9]", 0, ()),
        ("re_tag", "references/tag.py", 855, r"<cds\.[A-Z]+>[^<]*</cds\.[A-Z]+>|<cds\.[A-Z]+ />", 0, ()),
        ("p_break", "documents/text.py", 248, r"^\s*\f\s*$", 0, ()),
        ("p_wordSearch", "documents/text.py", 269, r"([A-Za-z0-9-]+)", 0, ()),
        ("p_break_in_line", "documents/pdf.py", 65, r"^\s*\f(.+)$", 0, (1,)),
        ("lower_case_start", "references/text.py", 228, r"[a-z]", 0, ()),
        ("continuing_line_markers", "references/text.py", 229, r"[,&-]$", 0, ()),
        ("quoted_comma", "references/text.py", 317, r'"([^"]+),"', 0, (1,)),
        ("re_institute_name", "references/kbs.py", 302, r"^\*{5}\s*(.+)\s*\*{5}$", 0, (1,)),
        ("re_numeration_pattern", "references/kbs.py", 310, r"^\<(.+)\>$", 0, (1,)),
    ]
    for name, f, line, pat, flags, keep in inline:
        text = open(REPO + "/refextract/" + f, encoding="utf-8").read().split("\n")[line - 1]
        probe = pat if name != "roman_end" else "$"
        assert probe in text, (name, line, text)
        emit(name, pat, flags, "refextract/%s:%d" % (f, line), keep)

    with open(OUT + "/Regexs.lean", "w", encoding="utf-8") as fh:
        fh.write("import Verif.Py.Re\n\n/-!\n# Regular expressions of refextract\n\n"
                 "Generated by `tools/gen_regex.py` from the text of `/repo`; do not edit.\n-/\n\n"
                 "set_option maxRecDepth 4096\n\nnamespace Py\n\n")
        fh.write("/-! Group names -/\n")
        for k, v in GROUPS.items():
            fh.write("/-- group `%s` -/\nabbrev G.%s : Nat := %d\n" % (k, k, v))
        fh.write("\nnamespace Rx\n\n")
        for _, d in DEFS:
            fh.write(d + "\n")
        fh.write("end Rx\n\nend Py\n")
    print(len(DEFS), "definitions")


main()
