#!/usr/bin/env python3
"""Writes lean/Verif/Derive/Formats.lean (the definitions of the types in /repo/ssbh_lib/src as values of Ty, from the Rust
definitions), Derive/FormatsSame.lean (that the writers in Verif/Formats are the derived ones) and Derive/FormatsPort.lean
(that the files of Modl, Matl and Nrpd of any platform can be read) and Derive/Items.lean (the definitions with their attributes).

Usage: python3 gen_derive.py"""
import os, re
import gen_formats as G
from gen_formats import paren, split_args, fields, topo, repr_of, opt

OUT = os.environ.get('OUT', os.path.join(os.path.dirname(os.path.abspath(__file__)), '../lean/Verif/Derive/'))
SPEC, LAWS, PORT, ITEMS = [], [], [], []
PORTED = ('Vec', 'Modl', 'Matl', 'Nrpd')
POINTS = set()


NUM = {'u8': 1, 'u16': 2, 'i16': 2, 'u32': 4, 'i32': 4, 'f32': 4, 'u64': 8}
PRIM = {k: f'.number {n}' for k, n in NUM.items()}
PRIM.update({'SsbhString': '.text 4', 'SsbhString8': '.text 8', 'SsbhByteBuffer': '.buffer', '()': '.unit'})
TARGETS = set()

def ty(t, mod, env):
    t = t.strip()
    if t in env: return env[t].lower() + 'T'
    if t in PRIM: return f'({PRIM[t]})' if ' ' in PRIM[t] else PRIM[t]
    m = re.match(r'\[(\w+); (\d+)\]$', t)
    if m: return f'(.array {m.group(2)} {ty(m.group(1), mod, env)})'
    m = re.match(r'(\w+)<(.*)>$', t)
    if m:
        head, args = m.group(1), split_args(m.group(2))
        if head == 'SsbhEnum64':
            q = G.qual(args[0], mod)
            return f'(.tagged {q}.tags {q}.ty)'
        a = [ty(x, mod, env) for x in args]
        if head == 'SsbhArray': return f'(.list {a[0]})'
        if head == 'RelPtr64':
            if args[0] not in PRIM: TARGETS.add(G.qual(args[0], mod))
            return f'(.ptr {a[0]})'
        return '(' + G.qual(head, mod) + '.ty' + ''.join(' ' + x for x in a) + ')'
    return G.qual(t, mod) + '.ty'

def fieldsT(ts):
    return ''.join(f'(.cons none none {t} ' for t in ts) + '.nil' + ')' * len(ts)

def opts(pad=None, al=None):
    o = ([f'padAfter := some {pad}'] if pad else []) + ([f'alignAfter := some {al}'] if al else [])
    return '{ ' + ', '.join(o) + ' }' if o else '{}'

def attr(a):
    name = re.match(r'#\[(\w+)', a).group(1)
    if name != 'ssbhwrite': return f'.other ["{name}"]'
    body = re.match(r'#\[ssbhwrite\((.*)\)\]$', a).group(1)
    args = []
    for x in body.split(', '):
        m, r = re.match(r'(\w+) = (\d+)$', x), re.match(r'repr\((\w+)\)$', x)
        args.append(f'.item (.nameValue ["{m.group(1)}"] (.int {m.group(2)}))' if m else f'.item (.list ["repr"] [.item (.path ["{r.group(1)}"])])')
    return f'.item (.list ["ssbhwrite"] [{", ".join(args)}])'

def attrsT(l):
    return '[' + ', '.join(attr(a) for a in l) + ']'

def fieldsD(fs, mod, env):
    return '.named [' + ', '.join(f'⟨{attrsT(a)}, {ty(t, mod, env)}⟩' for (_, t, a) in fs) + ']'

def item(q, cite, attrs, data, ps='', call='', by='rfl'):
    ITEMS.append(f'/-- {cite} -/\ndef {q}.item{ps} : Item :=\n  ⟨{attrsT(attrs)},\n    {data}⟩\n'
                 f'theorem {q}.item_derive{ps} : ({q}.item{call}).derive = .ok ({q}.ty{call}) := {by}\n')

def struct(q, cite, fs, mod, env, params, pad=0, attrs=()):
    ps = ''.join(f' ({p.lower()}T : Ty)' for p in params)
    body = fieldsT([ty(t, mod, env) for (n, t, _) in fs])
    SPEC.append(f'/-- {cite} -/\ndef {q}.ty{ps} : Ty :=\n  .named {opts(pad)} {body}\n')
    item(q, cite, attrs, f'.struct ({fieldsD(fs, mod, env)})', ps, ''.join(f' {p.lower()}T' for p in params))
    hyp = ''.join(f' {{{p} : Type}} {{{p.lower()}C : Codec {p}}} [Derives {p.lower()}C {p.lower()}T]' for p in params)
    c = paren(f'{q}.codec' + ''.join(f' {p.lower()}C' for p in params))
    t = paren(f'{q}.ty' + ''.join(f' {p.lower()}T' for p in params))
    LAWS.append(f'instance{hyp} : Derives {c} {t} := structDerives\n')
    port(mod, q, body, pad, params)

def points(t):
    return '.ptr' in t or '.tagged' in t or any(q + '.ty' in t for q in POINTS)

def port(mod, q, t, pad=0, params=()):
    if mod not in PORTED or params: return
    if points(t):
        POINTS.add(q)
        PORT.append(f'instance : Port {q}.codec := structPort\n')
    elif pad:
        PORT.append(f'instance : PortW {q}.codec := .plain inferInstance fun _ => rfl\n')
    else: PORT.append(f'instance : Port {q}.codec := .plain inferInstance fun _ => rfl\n')

def on(k, x):
    for _ in range(k): x = f'On.later ({x})'
    return x

def inj(k, x):
    for _ in range(k): x = f'Variants.later ({x})'
    return x

def is_(k, c, A):
    x = f'Is.first (c := {c}) {A} _ _ v'
    for _ in range(k): x = f'Is.later ({x})'
    return x

def chain(q, vs):
    LAWS.append(f'def {q}.variantsVal : {q} → {q}.variants.Val\n' +
                '\n'.join(f'  | .{v[1]} v => {inj(k, f"Variants.first (DerivesV.val (c := {v[4]}) v)")}' for k, v in enumerate(vs)) + '\n')

def emit(path, mod, top, magic, skip=(), doc=''):
    items, order = G.parse(path, mod)
    items = {k: v for k, v in items.items() if k not in skip}
    order = [o for o in order if o in items]
    src = f'/repo/ssbh_lib/src/{path}'
    SPEC.append(f'/-! ## {doc} -/\n')
    for n in topo(items, order):
        it = items[n]
        G.KIND[n] = it.kind
        if n == top: continue
        q = n if mod == 'Vec' else f'{mod}.{n}'
        cite = f'{src}:{it.lines[0]}-{it.lines[1]}'
        G.ALIGN[(mod, n)] = 8
        r = repr_of(it.attrs)
        if it.kind == 'enum' and r:
            vals = [int(v, 0) for _, v in re.findall(r'(\w+) = (0x[0-9a-fA-F]+|\d+)', ' '.join(it.body))]
            rr = [re.match(r'#\[repr\((\w+)\)', a) for a in it.attrs]
            rr = [NUM[x.group(1)] for x in rr if x]
            m = rr[0] if rr else 1 if max(vals) < 256 else 2 if max(vals) < 65536 else 4
            how = 'with' if rr else 'without'
            SPEC.append(f'/-- {cite}: {how} `#[repr]` the enum has {m} byte{"s" if m > 1 else ""} in memory. -/\ndef {q}.ty : Ty := .repr {{}} {r} {m}\n')
            item(q, cite, it.attrs, f'.enum (List.replicate {len(vals)} ⟨[], .unit⟩) {m}', by='repr_derive (o := { repr := some "%s" }) rfl rfl rfl' % re.search(r'ssbhwrite\(repr\((\w+)', ' '.join(it.attrs)).group(1))
            h = 'by intro t ht; simp only [List.mem_range] at ht; omega' if len(vals) > 100 else 'by decide'
            LAWS.append(f'instance : Derives {q}.codec {q}.ty := reprDerives {m} ({h})\n')
            port(mod, q, '')
        elif it.kind == 'struct' and 'bitfield' in ' '.join(it.attrs):
            SPEC.append(f'/-- {cite} -/\ndef {q}.ty : Ty := .bitfield 4\n')
            LAWS.append(f'instance : Derives {q}.codec {q}.ty := inferInstanceAs (Derives bitfield32 (.bitfield 4))\n')
            port(mod, q, '')
        elif it.kind == 'struct':
            assert 'alignment' not in ' '.join(it.attrs)
            for f in fields(it.body): assert 'ssbhwrite' not in ' '.join(f[2])
            struct(q, cite, fields(it.body), mod, {p: p for p in it.params}, it.params, opt(it.attrs, 'pad_after'), it.attrs)
        elif it.kind == 'tagged':
            vs = []
            for b in it.body:
                m = re.match(r'(\d+)(?:u64)? =>\s+(\w+)\((.*)\),?$', b)
                c = G.ty(m.group(3), mod, {})[1]
                vs.append((int(m.group(1)), m.group(2), ty(m.group(3), mod, {}), c, f'struct 8 {paren(c)}'))
            tags = ', '.join(str(v[0]) for v in vs)
            SPEC.append(f'/-- {cite}: `ssbh_enum!` defines an enum which derives `SsbhWrite`, /repo/ssbh_lib/src/enums.rs:149-175 -/\n'
                        f'def {q}.tags : List UInt64 := [{tags}]\ndef {q}.variants : Variants :=\n  ' +
                        ''.join(f'(.cons none none {fieldsT([v[2]])} ' for v in vs) + '.nil' + ')' * len(vs) + f'\ndef {q}.ty : Ty := .enum {{}} {q}.variants\n')
            item(q, cite, it.attrs, '.enum [' + ', '.join(f'⟨[.other ["br"]], .unnamed [⟨[], {v[2]}⟩]⟩' for v in vs) + ']')
            chain(q, vs)
            LAWS.append(f'instance : DerivesT {q}.tagged {q}.tags {q}.ty where\n  val v := {q}.variantsVal v\n  write v w := by\n    cases v with\n' +
                        '\n'.join(f'    | {v[1]} v => exact ({is_(k, v[4], "none")} : Is none none {q}.variants _ _ _ _).tagged w' for k, v in enumerate(vs)) +
                        f'\n  align := rfl\n  tag v := by cases v <;> rfl\n')
            if mod in PORTED:
                PORT.append(f'instance : PortT {q}.tagged := portT (by decide) fun P hP v => by\n  cases v with\n' +
                    '\n'.join(f'  | {v[1]} v => exact On.law (d := {v[3]}) (f := {q}.{v[1]}) (PortW.law P hP) ({on(k, "On.first _ v")}) (fun _ _ => rfl)' for k, v in enumerate(vs)) + '\n')
        else: raise Exception(n)
    if top is None: return
    it = items[top]
    V, D, attrs, k = [], [], [], 0
    cite = f'{src}:{it.lines[0]}-{it.lines[1]}'
    pad, al0 = opt(it.attrs, 'pad_after'), opt(it.attrs, 'align_after')
    while k < len(it.body):
        b = it.body[k]
        if b.startswith('#['):
            attrs.append(b); k += 1; continue
        al = opt(attrs, 'align_after')
        assert not opt(attrs, 'pad_after')
        m = re.match(r'(\w+)\((.*)\),$', b)
        m1 = re.match(r'(\w+) \{ (.*) \},$', b)
        if m:
            c = G.ty(m.group(2), mod, {})[1]
            c = f'padAfterWrite {pad} {paren(c)}' if pad else c
            D.append(f'⟨{attrsT(attrs)}, .unnamed [⟨[], {ty(m.group(2), mod, {})}⟩]⟩')
            V.append((m.group(1), fieldsT([ty(m.group(2), mod, {})]), al, f'struct 8 {paren(c)}'))
        else:
            if m1: vn, fs = m1.group(1), fields(split_args(m1.group(2)))
            else:
                vn, body = re.match(r'(\w+) \{$', b).group(1), []
                k += 1
                while it.body[k] != '},':
                    body.append(it.body[k]); k += 1
                fs = fields(body)
            assert not pad
            for f in fs: assert 'ssbhwrite' not in ' '.join(f[2])
            q = f'{mod}.{vn}Data'
            SPEC.append(f'/-- `{top}::{vn}`, {cite} -/\ndef {q}.fields : Fields :=\n  {fieldsT([ty(t, mod, {}) for (n, t, _) in fs])}\n')
            LAWS.append(f'instance : DerivesV {q}.codec none {q}.fields := structVariant\n')
            D.append(f'⟨{attrsT(attrs)}, {fieldsD(fs, mod, {})}⟩')
            V.append((vn, f'{q}.fields', al, f'{q}.codec'))
        attrs = []; k += 1
    body = ''.join(f'(.cons none {f"(some {v[2]})" if v[2] else "none"} {v[1]} ' for v in V) + '.nil' + ')' * len(V)
    SPEC.append(f'/-- {cite} -/\ndef {top}.variants : Variants :=\n  {body}\ndef {top}.ty : Ty := .enum {opts(pad, al0)} {top}.variants\n')
    item(top, cite, it.attrs, '.enum [' + ',\n      '.join(D) + ']')
    o = lambda x: f'(some {x})' if x else 'none'
    chain(top, [(0, v[0], 0, 0, v[3]) for v in V])
    l = [f'instance : DerivesFile {top} {top}.ty where', f'  val v := {top}.variantsVal v']
    I = lambda k, v: f'({is_(k, v[3], o(al0))} : Is {o(al0)} {o(v[2])} {top}.variants _ _ {o(pad)} _)'
    l += ['  size v := by', '    cases v with']
    l += [f'    | {v[0]} v => exact {I(k, v)}.fileSize' for k, v in enumerate(V)]
    l += ['  write v w := by', '    cases v with']
    l += [f'    | {v[0]} v => exact {I(k, v)}.file (n := {v[2] or al0 or 1}) (fun _ => rfl) w' for k, v in enumerate(V)]
    LAWS.append('\n'.join(l) + '\n')
    if mod in PORTED:
        PORT.append(f'theorem {top}.fileOn_law {{P : Platform}} (hP : P.Ok) : LawFormat (fileOn P {top}) := Derive.fileOn_law fun v => by\n  cases v with\n' +
            '\n'.join(f'  | {v[0]} v => exact On.file hP (c := {v[3]}) (f := {top}.{v[0]}) rfl ({on(k, "On.first _ v")}) (fun _ _ => rfl)' for k, v in enumerate(V)) + '\n')

for f in G.FORMATS: f(emit)
PORT.insert(0, 'instance : Port (relPtr ssbhString) := relPtr_law inferInstance (by decide)\ninstance : Port (relPtr Verif.u64) := relPtr_law inferInstance (by decide)\n')
for q in sorted(TARGETS):
    k = next(i for i, l in enumerate(PORT) if l.startswith(f'instance : Port {q}.codec'))
    PORT.insert(k + 1, f'instance : Port (relPtr {q}.codec) := relPtr_law inferInstance (by decide)\n')
    k = next(i for i, l in enumerate(LAWS) if l.startswith(f'instance : Derives {q}.codec'))
    LAWS.insert(k + 1, f'instance : DerivesP {q}.codec {q}.ty := .of inferInstance rfl\n')
head = '''import %s
/-!
# %s

Written by tools/gen_derive.py from the Rust definitions.
-/

namespace Verif

open Derive

'''

open(OUT + 'Formats.lean', 'w').write((head % ('Verif.Derive.Model', 'The definitions of the types in ssbh_lib')) + '\n'.join(SPEC) + '\nend Verif\n')
open(OUT + 'FormatsSame.lean', 'w').write((head % ('Verif.Derive.Same\nimport Verif.Derive.Formats', 'The writers of the formats are the derived ones')) + '\n'.join(LAWS) + '\nend Verif\n')
open(OUT + 'FormatsPort.lean', 'w').write((head % ('Verif.Derive.Port', 'The files of other platforms can be read')) + '\n'.join(PORT) + '\nend Verif\n')
open(OUT + 'Items.lean', 'w').write((head % ('Verif.Derive.Attributes\nimport Verif.Derive.Formats', 'The definitions of the types in ssbh_lib with their attributes')) + '\n'.join(ITEMS) + '\nend Verif\n')
