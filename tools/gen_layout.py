#!/usr/bin/env python3
"""Writes lean/Verif/Layout/Formats.lean (the layout of the types in /repo/ssbh_lib/src: the distance of each field from the
start, computed here from the Rust definitions) and Layout/FormatLaws.lean (that the readers follow it).

Usage: python3 gen_layout.py"""
import os, re
import gen_formats as G
from gen_formats import paren, split_args, fields, topo, repr_of

OUT = os.path.join(os.path.dirname(os.path.abspath(__file__)), '../lean/Verif/Layout/')
SPEC, LAWS = [], []
SIZE = {}
FILES = []

PRIM = {'u8': ('u8', 1), 'u16': ('u16', 2), 'u32': ('u32', 4), 'u64': ('u64', 8), 'i16': ('i16', 2), 'i32': ('i32', 4),
        'f32': ('f32', 4), 'SsbhString': ('text', 8), 'SsbhString8': ('text', 8), 'SsbhByteBuffer': ('buffer', 16),
        '()': ('unit', 0)}

def lay(t, mod, env):
    """(layout, size)"""
    t = t.strip()
    if t in env: return env[t].lower() + 'L', env[t].lower() + 'L.size'
    if t in PRIM: return 'Layout.' + PRIM[t][0], PRIM[t][1]
    m = re.match(r'\[(\w+); (\d+)\]$', t)
    if m:
        a = lay(m.group(1), mod, env)
        return f'(Layout.vector {m.group(2)} {a[0]})', int(m.group(2)) * a[1]
    m = re.match(r'(\w+)<(.*)>$', t)
    if m:
        head, args = m.group(1), split_args(m.group(2))
        if head == 'SsbhEnum64':
            q = G.qual(args[0], mod)
            return f'(Layout.tagged {q}.tagNumber {q}.DataAt)', 16
        a = [lay(x, mod, env) for x in args]
        if head == 'SsbhArray': return f'(Layout.list {a[0][0]})', 16
        if head == 'RelPtr64': return f'(Layout.pointer {a[0][0]})', 8
        q = G.qual(head, mod)
        return '(' + q + '.layout' + ''.join(' ' + x[0] for x in a) + ')', SIZE[q]
    q = G.qual(t, mod)
    return q + '.layout', SIZE[q]

def struct(q, cite, fs, mod, env, params, pad=0, padw=0):
    off, parts = 0, []
    for (n, t, _) in fs:
        l, s = lay(t, mod, env)
        at = 'p' if off == 0 else f'(p + {off})'
        parts.append(f'{l}.stored b {at} v.{n}')
        if isinstance(s, str):
            assert n == fs[-1][0]
            off = f'{off} + {s}'
        else: off += s
    if pad: off += pad
    SIZE[q] = off
    pi = ''.join(f' {{{p} : Type}}' for p in params)
    ps = ''.join(f' ({p.lower()}L : Layout {p})' for p in params)
    qq = paren(q + ''.join(' ' + p for p in params))
    SPEC.append(f'/-- {cite} -/\ndef {q}.layout{pi}{ps} : Layout {qq} :=\n  ⟨{off}, fun b p v =>\n    ' + ' ∧\n    '.join(parts) + '⟩\n')
    hyp = ''.join(f' {{{p.lower()}C : Codec {p}}} {{{p.lower()}L : Layout {p}}} [Lays {p.lower()}C {p.lower()}L]' for p in params)
    c = paren(f'{q}.codec' + ''.join(f' {p.lower()}C' for p in params))
    l = paren(f'{q}.layout' + ''.join(f' {p.lower()}L' for p in params))
    E, R = 'Iff.rfl', 'rfl'
    if q == 'Mesh.MeshObject':
        names = sorted({x for pt in parts for x in re.findall(r'[A-Z][\w.]*(?=\.stored| )', pt) if '.' in x} | {q + '.layout', 'Layout.list'})
        names = [x[:-7] if x.endswith('.stored') else x for x in names]
        R = f'(by simp only [{", ".join(names)}, Layout.enum])'
        E = 'by simp only [Nat.add_assoc]; exact Iff.rfl'
    L = 'record_padAfter_lays' if pad else 'record_padAfterWrite_lays' if padw else 'record_lays'
    LAWS.append(f'instance{pi}{hyp} : Lays {c} {l} := by\n  unfold {q}.codec; exact {L} (fun _ => rfl) {R} (fun _ _ _ => {E})\n')

def emit(path, mod, top, magic, skip=(), doc=''):
    items, order = G.parse(path, mod)
    items = {k: v for k, v in items.items() if k not in skip}
    order = [o for o in order if o in items]
    src = f'/repo/ssbh_lib/src/{path}'
    SPEC.append(f'/-! ## {doc} -/\n')
    for n in topo(items, order):
        it = items[n]
        G.KIND[n] = it.kind
        if n == top: continue
        q = n if mod == 'Vec' else f'{mod}.{n}'
        cite = f'{src}:{it.lines[0]}-{it.lines[1]}'
        G.ALIGN[(mod, n)] = 8
        r = repr_of(it.attrs)
        if it.kind == 'enum' and r:
            SIZE[q] = r
            SPEC.append(f'/-- {cite} -/\ndef {q}.layout : Layout {q} := Layout.enum {r}\n')
            LAWS.append(f'instance : Lays {q}.codec {q}.layout := reprEnum_lays (by decide)\n' if len(it.body) < 90 else
                        f'instance : Lays {q}.codec {q}.layout :=\n  reprEnum_lays (by intro t ht; simp only [List.mem_range] at ht; omega)\n')
        elif it.kind == 'struct' and 'bitfield' in ' '.join(it.attrs):
            SIZE[q] = 4
            SPEC.append(f'/-- {cite} -/\ndef {q}.layout : Layout {q} := Layout.u32\n')
            LAWS.append(f'instance : Lays {q}.codec {q}.layout := inferInstanceAs (Lays bitfield32 Layout.u32)\n')
        elif it.kind == 'struct':
            fs = fields(it.body)
            pad = 0
            for a in fs[-1][2]:
                m = re.search(r'br\(pad_after = (\d+)\)', a)
                if m: pad = int(m.group(1))
            padw = any('pad_after' in a and not 'br(' in a for a in it.attrs) or any('pad_after' in a for a in it.attrs)
            struct(q, cite, fs, mod, {p: p for p in it.params}, it.params, pad, padw)
        elif it.kind == 'tagged':
            vs = []
            for b in it.body:
                m = re.match(r'(\d+)(?:u64)? =>\s+(\w+)\((.*)\),?$', b)
                vs.append((int(m.group(1)), m.group(2), lay(m.group(3), mod, {})[0]))
            SPEC.append(f'/-- {cite}: the numbers of the types -/\ndef {q}.tagNumber : {q} → Nat\n' +
                        '\n'.join(f'  | .{v[1]} _ => {v[0]}' for v in vs) + '\n')
            SPEC.append(f'def {q}.DataAt (b : Bytes) (p : Nat) : {q} → Prop\n' +
                        '\n'.join(f'  | .{v[1]} v => {v[2]}.stored b p v' for v in vs) + '\n')
            LAWS.append(f'instance : LaysT {q}.tagged {q}.tagNumber {q}.DataAt := ⟨by\n  intro k b p v\n'
                        f'  simp only [{q}.tagged, tag_step, exists_error]\n  cases v with\n' +
                        '\n'.join(f'  | {v[1]} v => by_cases h : k = {v[0]} <;> simp [h, {q}.tagNumber, {q}.DataAt{", Layout.unit" if v[2] == "Layout.unit" else ""}]' for v in vs) + '⟩\n')
        else: raise Exception(n)
    if top is None: return
    it = items[top]
    V, attrs, k = [], [], 0
    cite = f'{src}:{it.lines[0]}-{it.lines[1]}'
    while k < len(it.body):
        b = it.body[k]
        if b.startswith('#['):
            attrs.append(b); k += 1; continue
        ver = re.search(r'major_version == (\d+) &&\s+minor_version == (\d+)', ' '.join(attrs)).groups()
        m = re.match(r'(\w+)\((.*)\),$', b)
        m1 = re.match(r'(\w+) \{ (.*) \},$', b)
        if m:
            V.append((m.group(1), lay(m.group(2), mod, {})[0], ver))
        else:
            if m1: vn, fs = m1.group(1), fields(split_args(m1.group(2)))
            else:
                vn, body = re.match(r'(\w+) \{$', b).group(1), []
                k += 1
                while it.body[k] != '},':
                    body.append(it.body[k]); k += 1
                fs = fields(body)
            struct(f'{mod}.{vn}Data', f'`{top}::{vn}`, {cite}', fs, mod, {}, [])
            V.append((vn, f'{mod}.{vn}Data.layout', ver))
        attrs = []; k += 1
    hexs = ', '.join(hex(ord(c)) for c in magic)
    SPEC.append(f'/-- {cite}, and the magic from /repo/ssbh_lib/src/lib.rs:300-309: {magic} -/\ndef {top}.FileAt (b : Bytes) : {top} → Prop\n' +
                '\n'.join(f'  | .{v[0]} v => Layout.FileAt [{hexs}] {v[2][0]} {v[2][1]} (fun b p => {v[1]}.stored b p v) b' for v in V) + '\n')
    l = [f'instance : LaysFile {top} := ⟨{top}.FileAt, by', '  intro b v', '  rw [format_lays rfl]', f'  simp only [SsbhType.format, {top}.format, tag_step, exists_error]', '  cases v with']
    for v in V:
        l += [f'  | {v[0]} v =>', f'    rw [two_numbers (M := {v[2][0]}) (N := {v[2][1]}) (P := {v[1]}.stored b 24 v)]', f'    · simp only [and_assoc]; rfl',
              '    · intro major minor', f'      by_cases h1 : major = {v[2][0]} <;> by_cases h2 : minor = {v[2][1]} <;> simp [h1, h2]']
    LAWS.append('\n'.join(l) + '⟩\n')
    FILES.append(top)

for f in G.FORMATS: f(emit)
head = '''import %s
/-!
# %s

Written by tools/gen_layout.py from the Rust definitions.
-/

namespace Verif

'''
open(OUT + 'Formats.lean', 'w').write((head % ('Verif.Layout.Spec\nimport Verif.Formats.Ssbh', 'Layouts of the ten formats')) + '\n'.join(SPEC) + '\nend Verif\n')
open(OUT + 'FormatLaws.lean', 'w').write((head % ('Verif.Layout.Laws\nimport Verif.Layout.Formats', 'The readers follow the layouts')) + '\n'.join(LAWS) + '\nend Verif\n')
