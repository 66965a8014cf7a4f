#!/usr/bin/env python3
"""Writes lean/Verif/Image/Formats.lean (the bytes of the types in /repo/ssbh_lib/src, from the Rust definitions) and
Image/FormatLaws.lean (that the writers produce them).

Usage: python3 gen_image.py"""
import os, re
import gen_formats as G
from gen_formats import paren, split_args, fields, topo, repr_of, opt

OUT = os.path.join(os.path.dirname(os.path.abspath(__file__)), '../lean/Verif/Image/')
SPEC, LAWS, FILES = [], [], []

PRIM = {t: t for t in ('u8', 'u16', 'u32', 'u64', 'i16', 'i32', 'f32')}
PRIM.update({'SsbhString': 'text 4', 'SsbhString8': 'text 8', 'SsbhByteBuffer': 'buffer', '()': 'unit'})

NUM = {'u8': 1, 'u16': 2, 'i16': 2, 'u32': 4, 'i32': 4, 'f32': 4}
AL = {}

def align(t, mod):
    """the alignment of a type: the largest one of its fields"""
    t = t.strip()
    m = re.match(r'\[(\w+); (\d+)\]$', t)
    if m: return align(m.group(1), mod)
    if t in NUM: return NUM[t]
    if t in PRIM or '<' in t: return 8
    return AL[G.qual(t, mod)]

def img(t, mod, env):
    t = t.strip()
    if t in env: return env[t].lower() + 'I'
    if t in PRIM: return paren('Image.' + PRIM[t])
    m = re.match(r'\[(\w+); (\d+)\]$', t)
    if m: return f'(Image.vector {img(m.group(1), mod, env)})'
    m = re.match(r'(\w+)<(.*)>$', t)
    if m:
        head, args = m.group(1), split_args(m.group(2))
        if head == 'SsbhEnum64':
            q = G.qual(args[0], mod)
            return f'(Image.tagged {q}.number {q}.target)'
        a = [img(x, mod, env) for x in args]
        if head == 'SsbhArray': return f'(Image.list {a[0]})'
        if head == 'RelPtr64': return f'(Image.pointer {align(args[0], mod)} (Image.record {a[0]}))'
        return '(' + G.qual(head, mod) + '.image' + ''.join(' ' + x for x in a) + ')'
    return G.qual(t, mod) + '.image'

def struct(q, cite, fs, mod, env, params, pad=0):
    AL[q] = max(8 if t in env else align(t, mod) for (n, t, _) in fs)
    body = ' ▹ '.join(f'{img(t, mod, env)} v.{n}' for (n, t, _) in fs)
    if len(body) > 90: body = ' ▹\n    '.join(f'{img(t, mod, env)} v.{n}' for (n, t, _) in fs)
    if pad: body = f'({body}) ▹ Image.padding {pad}'
    pi = ''.join(f' {{{p} : Type}}' for p in params)
    ps = ''.join(f' ({p.lower()}I : {p} → Image.Piece)' for p in params)
    qq = paren(q + ''.join(' ' + p for p in params))
    SPEC.append(f'/-- {cite} -/\ndef {q}.image{pi}{ps} (v : {qq}) : Image.Piece :=\n    {body}\n')
    hyp = ''.join(f' {{{p.lower()}C : Codec {p}}} {{{p.lower()}I : {p} → Image.Piece}} [EmitF {p.lower()}C {p.lower()}I]' for p in params)
    c = paren(f'{q}.codec' + ''.join(f' {p.lower()}C' for p in params))
    l = paren(f'{q}.image' + ''.join(f' {p.lower()}I' for p in params))
    LAWS.append(f'instance{pi}{hyp} : EmitC {c} {l} := by\n  unfold {q}.codec; exact EmitC.of inferInstance (fun _ => rfl)\n')

def emit(path, mod, top, magic, skip=(), doc=''):
    items, order = G.parse(path, mod)
    items = {k: v for k, v in items.items() if k not in skip}
    order = [o for o in order if o in items]
    src = f'/repo/ssbh_lib/src/{path}'
    SPEC.append(f'/-! ## {doc} -/\n')
    for n in topo(items, order):
        it = items[n]
        G.KIND[n] = it.kind
        if n == top: continue
        q = n if mod == 'Vec' else f'{mod}.{n}'
        cite = f'{src}:{it.lines[0]}-{it.lines[1]}'
        G.ALIGN[(mod, n)] = 8
        r = repr_of(it.attrs)
        if it.kind == 'enum' and r:
            AL[q] = r
            SPEC.append(f'/-- {cite} -/\ndef {q}.image : {q} → Image.Piece := Image.enum {r}\n')
            LAWS.append(f'instance : EmitC {q}.codec {q}.image := reprEnum_emit\n')
        elif it.kind == 'struct' and 'bitfield' in ' '.join(it.attrs):
            AL[q] = 4
            SPEC.append(f'/-- {cite} -/\ndef {q}.image : {q} → Image.Piece := Image.u32\n')
            LAWS.append(f'instance : EmitC {q}.codec {q}.image := inferInstanceAs (EmitC bitfield32 Image.u32)\n')
        elif it.kind == 'struct':
            assert 'alignment' not in ' '.join(it.attrs)
            struct(q, cite, fields(it.body), mod, {p: p for p in it.params}, it.params, opt(it.attrs, 'pad_after'))
        elif it.kind == 'tagged':
            vs = []
            for b in it.body:
                m = re.match(r'(\d+)(?:u64)? =>\s+(\w+)\((.*)\),?$', b)
                vs.append((int(m.group(1)), m.group(2), img(m.group(3), mod, {}), G.ty(m.group(3), mod, {})[1]))
            SPEC.append(f'/-- {cite}: the numbers of the types -/\ndef {q}.number : {q} → Nat\n' +
                        '\n'.join(f'  | .{v[1]} _ => {v[0]}' for v in vs) + '\n')
            SPEC.append(f'def {q}.target : Image.Target {q}\n' +
                        '\n'.join(f'  | .{v[1]} v => Image.record {v[2]} v' for v in vs) + '\n')
            LAWS.append(f'instance : EmitU {q}.tagged {q}.number {q}.target where\n  target v := by\n    cases v with\n' +
                        '\n'.join(f'    | {v[1]} v => exact {"unit_emit" if v[2] == "Image.unit" else f"variant_emit (c := {v[3]})"} 8 v' for v in vs) +
                        f'\n  align := rfl\n  tag v := by cases v <;> exact ⟨rfl, by simp [{q}.number]⟩\n')
        else: raise Exception(n)
    if top is None: return
    it = items[top]
    V, attrs, k = [], [], 0
    cite = f'{src}:{it.lines[0]}-{it.lines[1]}'
    pad, al0 = opt(it.attrs, 'pad_after'), opt(it.attrs, 'align_after')
    while k < len(it.body):
        b = it.body[k]
        if b.startswith('#['):
            attrs.append(b); k += 1; continue
        ver = re.search(r'major_version == (\d+) &&\s+minor_version == (\d+)', ' '.join(attrs)).groups()
        al = opt(attrs, 'align_after') or al0 or 1
        m = re.match(r'(\w+)\((.*)\),$', b)
        m1 = re.match(r'(\w+) \{ (.*) \},$', b)
        if m:
            e = img(m.group(2), mod, {}) + ' v'
            c = G.ty(m.group(2), mod, {})[1]
            c = f'struct 8 (padAfterWrite {pad} {paren(c)})' if pad else f'struct 8 {paren(c)}'
            V.append((m.group(1), f'({e} ▹ Image.padding {pad})' if pad else f'({e})', ver, al, c))
        else:
            if m1: vn, fs = m1.group(1), fields(split_args(m1.group(2)))
            else:
                vn, body = re.match(r'(\w+) \{$', b).group(1), []
                k += 1
                while it.body[k] != '},':
                    body.append(it.body[k]); k += 1
                fs = fields(body)
            assert not pad
            struct(f'{mod}.{vn}Data', f'`{top}::{vn}`, {cite}', fs, mod, {}, [])
            V.append((vn, f'({mod}.{vn}Data.image v)', ver, al, f'{mod}.{vn}Data.codec'))
        attrs = []; k += 1
    hexs = ', '.join(hex(ord(c)) for c in magic)
    SPEC.append(f'/-- {cite}, and the magic from /repo/ssbh_lib/src/lib.rs:300-309: {magic} -/\ndef {top}.image : {top} → Image.File\n' +
                '\n'.join(f'  | .{v[0]} v => ⟨[{hexs}], {v[2][0]}, {v[2][1]}, {v[3]}, {v[1]}⟩' for v in V) + '\n')
    l = [f'instance : EmitFile {top} {top}.image where', '  emits v := by', '    cases v with']
    for v in V: l += [f'    | {v[0]} v => exact (inferInstance : EmitC {paren(v[4])} _).emits v']
    l += ['  head v := by cases v <;> exact ⟨rfl, rfl, rfl, rfl⟩']
    l += ['  size v := by', '    cases v with']
    for v in V: l += [f'    | {v[0]} v => exact (inferInstance : EmitC {paren(v[4])} _).size v']
    LAWS.append('\n'.join(l) + '\n')
    FILES.append(top)

for f in G.FORMATS: f(emit)
SPEC.append('/-- A file of any of the ten formats. /repo/ssbh_lib/src/lib.rs:496-537 -/\ndef Ssbh.image : Ssbh → Image.File\n' +
            '\n'.join(f'  | .{t} v => {t}.image v' for t in FILES) + '\n')
head = '''import %s
/-!
# %s

Written by tools/gen_image.py from the Rust definitions.
-/

namespace Verif

'''
open(OUT + 'Formats.lean', 'w').write((head % ('Verif.Image.Spec\nimport Verif.Formats.Ssbh', 'The bytes of the ten formats')) + '\n'.join(SPEC) + '\nend Verif\n')
open(OUT + 'FormatLaws.lean', 'w').write((head % ('Verif.Image.Files\nimport Verif.Image.Formats', 'The writers produce these bytes')) + '\n'.join(LAWS) + '\nend Verif\n')
