#!/usr/bin/env python3
"""Transliterates /repo/internal/atoi/atoi.go into Lean (one match arm per Go `case`)."""
import re
src = open('/repo/internal/atoi/atoi.go').read().split('\n')
out = []
w = out.append
w('''import Verif.Basic
/-!
# Model of `internal/atoi/atoi.go`

GENERATED by `tools/gen_atoi.py` from `/repo/internal/atoi/atoi.go`: one match arm per Go `case`,
the same sums in the same order over Lean's fixed-width integers (whose arithmetic wraps around as Go's).
`switch len(s)` is a match on the length of the list; `none` is the index-out-of-range panic of `s[0]`
on an empty text.
-/
set_option linter.unusedVariables false
namespace Verif.Model.Atoi
''')
def expr(e):
    e = ' '.join(e.split())
    e = re.sub(r"s\[0\]-'0'", r"(c0 - 48)", e)
    e = re.sub(r"d\((\d+)\)", r"d c\1", e)
    e = re.sub(r"\b1e(\d+)\b", lambda m: str(10**int(m.group(1))), e)
    return e
def wrap(e, ind):
    # break long sums
    parts = e.split(' + ')
    lines, cur = [], parts[0]
    for p in parts[1:]:
        if len(cur) + len(p) > 80:
            lines.append(cur + ' +'); cur = p
        else: cur += ' + ' + p
    lines.append(cur)
    return ('\n' + ' '*(ind+2)).join(lines)
def stmts(body, ind, T):
    """body: list of go lines (joined continuation) -> lean expr"""
    s = body[0]; rest = body[1:]
    pad = ' '*ind
    m = re.match(r'return (.*), (true|false)$', s)
    if m: return f'{pad}(({wrap(expr(m.group(1)), ind)}), {m.group(2)})'
    m = re.match(r'(p|n) :?= (.*)$', s)
    if m: return f'{pad}let {m.group(1)} : {T} := {wrap(expr(m.group(2)), ind)}\n' + stmts(rest, ind, T)
    m = re.match(r'if n = (.*); (.*) \{$', s)
    if m:
        assert rest[0] == 'return 0, true' and rest[1] == '}'
        return f'{pad}let n : {T} := {expr(m.group(1))}\n{pad}if {m.group(2)} then (0, true) else\n' + stmts(rest[2:], ind, T)
    m = re.match(r"if s\[0\] != '1' \{$", s)
    if m:
        assert rest[0] == 'return 0, true' and rest[1] == '}'
        return f'{pad}if c0 ≠ 49 then (0, true) else\n' + stmts(rest[2:], ind, T)
    m = re.match(r"if (.*) \{$", s)
    if m:
        assert rest[0] == 'return 0, true' and rest[1] == '}'
        c = expr(m.group(1)).replace('<=', '≤')
        return f'{pad}if {c} then (0, true) else\n' + stmts(rest[2:], ind, T)
    raise Exception(s)
def join(lines):
    """join continuation lines, strip comments/tabs"""
    res = []; acc = ''
    for l in lines:
        l = re.sub(r'//.*', '', l).strip()
        if not l: continue
        acc = (acc + ' ' + l) if acc else l
        if acc.endswith('+'): continue
        res.append(acc); acc = ''
    return res
def cases(lo, hi):
    """[(n, firstline, lastline, stmts)] for the case blocks within src[lo:hi]"""
    idx = [i for i in range(lo, hi) if re.match(r'\s*case \d+:', src[i])]
    res = []
    for k, i in enumerate(idx):
        if k+1 < len(idx): e = idx[k+1]
        else:
            ind = re.match(r'\s*', src[i]).group(0)
            e = i+1
            while src[e] != ind + '}': e += 1
        res.append((int(re.match(r'\s*case (\d+):', src[i]).group(1)), i+1, e, join(src[i+1:e])))
    return res
starts = [i for i, l in enumerate(src) if l.startswith('func ')]
for st in starts:
    name = re.match(r'func (\w+)\[', src[st]).group(1)
    en = next(i for i in range(st, len(src)) if src[i] == '}')
    bits = name[1:]
    T = ('UInt' if name[0] == 'U' else 'Int') + bits
    conv = {'U8':'c - 48','U16':'(c - 48).toUInt16','U32':'(c - 48).toUInt32','U64':'(c - 48).toUInt64',
            'I8':'(c - 48).toInt8','I16':'(c - 48).toUInt16.toInt16','I32':'(c - 48).toUInt32.toInt32','I64':'(c - 48).toUInt64.toInt64'}[name]
    dl = next(i for i in range(st, en) if 'd := func' in src[i])
    w(f'/-- `d` of `{name}`: atoi.go:{dl+1}. -/')
    w(f'def {name}.d (c : UInt8) : {T} := {conv}\n')
    def emit(cs, base, ind):
        for n, l0, l1, body in cs:
            names = [f'c{i}' for i in range(base, n)]
            w(' '*ind + f'| [{", ".join(names)}] => -- atoi.go:{l0}-{l1}')
            w(stmts(body, ind+4, T))
        w(' '*ind + f'| _ => (0, true) -- atoi.go:{en}')
    if name[0] == 'U':
        w(f'open {name} in\n/-- `{name}`: atoi.go:{st+1}-{en+1}. -/')
        w(f'def {name} (s : List UInt8) : {T} × Bool :=')
        w('  match s with')
        emit(cases(st, en), 0, 2)
        w('')
    else:
        el = next(i for i in range(st, en) if '} else {' in src[i])
        w(f'open {name} in\n/-- `{name}`, branch `s[0] == \'-\'` (arms list the bytes after the sign): atoi.go:{dl+2}-{el}. -/')
        w(f'def {name}.neg (s : List UInt8) : {T} × Bool :=')
        w(f'  let n : {T} := 0')
        w('  match s with'); emit(cases(st, el), 1, 2); w('')
        w(f'open {name} in\n/-- `{name}`, branch without sign: atoi.go:{el+1}-{en}. -/')
        w(f'def {name}.pos (s : List UInt8) : {T} × Bool :=')
        w('  match s with'); emit(cases(el, en), 0, 2); w('')
        w(f'/-- `{name}`: atoi.go:{st+1}-{en+1}; `none` is the panic of `s[0]` on an empty text. -/')
        w(f'def {name} (s : List UInt8) : Option ({T} × Bool) :=')
        w('  match s with\n  | [] => none\n  | c :: cs => if c = 45 then some (' + name + '.neg cs) else some (' + name + '.pos (c :: cs))\n')
w('end Verif.Model.Atoi')
open('/verif/lean/Verif/Model/Atoi.lean', 'w').write('\n'.join(out) + '\n')
