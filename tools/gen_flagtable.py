#!/usr/bin/env python3
"""Generate lean/Verif/Model/FlagTable.lean from /repo/src/flags.def and the
mode tables of context_setModeAux (/repo/src/context.c)."""
import re, sys
R = '/repo/src/'
OUT = '/verif/lean/Verif/Model/FlagTable.lean'


def records():
    s = open(R + 'flags.def').read()
    kinds = {}
    for m in re.finditer(r'# define (\w+)\s+((?:TRUE|FALSE)[^\n]*)', s):
        kinds[m.group(1)] = [x.strip() for x in m.group(2).split(',') if x.strip()]
    start = s.index('static flaglist flags')
    out = []
    for m in re.finditer(r'\{\s*(?:/\*.*?\*/\s*)?(FK_\w+)\s*,\s*(FK_\w+)\s*,\s*(\w+)\s*'
                         r'(?:,\s*(ARG_\w+))?\s*,\s*"([^"]*)"\s*,\s*(\w+)\s*,', s[start:]):
        main, sub, kind, arg, name, code = m.groups()
        k = list(kinds[kind])
        if len(k) == 4:
            k.append(arg)
        line = s[:start + m.start(5)].count('\n') + 1
        out.append(dict(main=main, spec=k[0], idem=k[1], glob=k[2], mode=k[3],
                        arg=k[4], name=name, code=code, line=line))
    # the numbering of the codes: Makefile.am:328 greps the lines with FLG_
    order = re.findall(r'FLG_\w+', '\n'.join(l for l in s.split('\n') if 'FLG_' in l))
    assert order == [r['code'] for r in out], 'numbering'
    return out


def modes():
    c = open(R + 'context.c').read()
    i = c.index('context_setModeAux (cstring s, bool warn)\n{')
    j = c.index('context_setMode: bad mode')
    res = []
    for m in re.finditer(r'cstring_equalLit \(s, "(\w+)"\)\)\s*\{\s*flagcode modeflags\[\]\s*=\s*'
                         r'\{(.*?)\}', c[i:j], re.S):
        b = re.sub(r'/\*.*?\*/', '', m.group(2), flags=re.S)
        l = [x.strip() for x in b.split(',') if x.strip()]
        assert l[-1] == 'INVALID_FLAG'
        lo = c[:i + m.start()].count('\n') + 1
        hi = c[:i + m.end()].count('\n') + 1
        res.append((m.group(1), l[:-1], lo, hi))
    return res


def main():
    rs = records()
    w = []
    w.append('import Verif.Tactics')
    w.append('/-! The table of flags (`src/flags.def`) and the tables of the modes '
             '(`src/context.c`,\n`context_setModeAux`).  Generated by `tools/gen_flagtable.py`; '
             'nothing but the texts and the\ncategories of the flags is left out. -/')
    w.append('namespace Splint.Flag')
    w.append('')
    w.append('/-- A list of characters written as a string. -/\n'
             'syntax:max "c!" str : term\n'
             'macro_rules\n'
             '  | `(c!$s:str) => do\n'
             '    let cs := (s.getString.toList.map (Lean.Syntax.mkCharLit ·)).toArray\n'
             '    `(([$cs,*] : List Char))')
    w.append('')
    w.append('/-- The kinds of argument of a flag, `src/flags.c:120-129` (`argcode`). -/')
    w.append('inductive Arg where\n  | none | special | number | char | string | file | path | dir')
    w.append('deriving DecidableEq, Repr')
    w.append('')
    w.append('/-- One entry of `flags[]`, `src/flags.c:157-171` (`fflag`).  Of the two categories only '
             'whether the\nfirst is `FK_NAMES` is kept. -/')
    w.append('structure Row where\n  name : List Char\n  names : Bool\n  special : Bool\n  idem : Bool\n'
             '  glob : Bool\n  mode : Bool\n  arg : Arg')
    w.append('')
    w.append('/-! The codes are the positions in the table: `src/Makefile.am:328` makes the '
             'enumeration\n`src/Headers/flag_codes.h:16-23` of the lines of `flags.def` that mention '
             'them. -/')
    for i, r in enumerate(rs):
        w.append(f'/-- `src/flags.def:{r["line"]}`. -/ abbrev {r["code"]} : Nat := {i}')
    w.append('')
    b = lambda x: 'true' if x == 'TRUE' else 'false'
    a = dict(ARG_NONE='none', ARG_SPECIAL='special', ARG_NUMBER='number', ARG_CHAR='char',
             ARG_STRING='string', ARG_FILE='file', ARG_PATH='path', ARG_DIRECTORY='dir')
    w.append('/-- `flags[]`, `src/flags.def`. -/')
    w.append('def table : List Row :=')
    for i, r in enumerate(rs):
        w.append(f'  {"[" if i == 0 else " "}⟨c!"{r["name"]}", {b("TRUE" if r["main"] == "FK_NAMES" else "FALSE")}, '
                 f'{b(r["spec"])}, {b(r["idem"])}, {b(r["glob"])}, {b(r["mode"])}, .{a[r["arg"]]}⟩'
                 f'{"]" if i == len(rs) - 1 else ","}')
    w.append('')
    w.append('/-- `NUMFLAGS`, `src/Headers/flag_codes.h:26-27`. -/')
    w.append(f'abbrev NUMFLAGS : Nat := {len(rs)}')
    for n, l, lo, hi in modes():
        w.append('')
        w.append(f'/-- The flags of the mode `{n}`, `src/context.c:{lo}-{hi}`. -/')
        line = f'def mode_{n} : List Nat :=\n  ['
        cur = line.split('\n')[-1]
        out = [line.split('\n')[0]]
        for k, x in enumerate(l):
            t = x + (']' if k == len(l) - 1 else ', ')
            if len(cur) + len(t) > 98:
                out.append(cur.rstrip())
                cur = '   '
            cur += t
        out.append(cur)
        w += out
    w.append('')
    w.append('end Splint.Flag')
    open(OUT, 'w').write('\n'.join(w) + '\n')


if __name__ == '__main__':
    main()
