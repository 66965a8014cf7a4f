#!/usr/bin/env python3
"""Translates the type definitions in /repo/ssbh_lib/src into lean/Verif/Formats/*.lean.

The generated files are committed and are plain definitions; this script only saves typing. Usage:
python3 gen_formats.py (writes next to itself, in ../lean/Verif/Formats)."""
import re, os, sys

SRC = '/repo/ssbh_lib/src/'
OUT = os.path.join(os.path.dirname(os.path.abspath(__file__)), '../lean/Verif/Formats/')

class Item: pass

def parse(path, mod):
    """structs, repr enums, ssbh_enum! and version enums of a file"""
    lines = open(SRC + path).read().split('\n')
    items = {}
    order = []
    attrs = []
    i = 0
    while i < len(lines):
        l = lines[i].strip()
        if l.startswith('#[cfg(test)]'):
            break
        if l.startswith('///') or l.startswith('//') or l == '':
            i += 1; continue
        if l.startswith('#['):
            attrs.append(l); i += 1; continue
        m = re.match(r'pub (struct|enum) (\w+)', l)
        m2 = re.match(r'ssbh_enum!\(', l)
        if m or m2:
            start = i
            it = Item()
            it.mod = mod; it.path = path
            it.attrs = attrs
            body = []
            if m:
                kind, it.name = m.groups()
                gen = re.match(r'pub \w+ \w+(<.*)', l)
                it.params = []
                if gen or l.endswith('<'):
                    txt = l
                    while '{' not in txt:
                        i += 1
                        txt += lines[i]
                    it.params = re.findall(r'(\w+): for<', txt)
                if l.endswith(';'):
                    i += 1; attrs = []; continue
                i += 1
                while lines[i] != '}':
                    body.append(lines[i]); i += 1
                it.kind = kind
            else:
                it.kind = 'tagged'; it.params = []
                i += 1
                while lines[i].strip() != ');':
                    if not lines[i].strip().startswith('//'): body.append(lines[i])
                    i += 1
                it.name = body[0].strip().rstrip(',')
                body = body[1:]
            it.lines = (start + 1, i + 1)
            it.body = [b.split('//')[0].strip() for b in body]
            it.body = [b for b in it.body if b]
            items[it.name] = it
            order.append(it.name)
            attrs = []
        elif l.startswith('impl'):
            while lines[i] != '}':
                i += 1
            attrs = []
        else:
            attrs = []
        i += 1
    return items, order

PRIM = {'u8': ('UInt8', 'u8', 1), 'u16': ('UInt16', 'u16', 2), 'u32': ('UInt32', 'u32', 4),
        'u64': ('UInt64', 'u64', 8), 'i16': ('Int16', 'i16', 2), 'i32': ('Int32', 'i32', 4),
        'f32': ('F32', 'f32', 4), 'SsbhString': ('SsbhString', 'ssbhString', 8),
        'SsbhString8': ('SsbhString', 'ssbhString8', 8), 'SsbhByteBuffer': ('Bytes', 'byteBuffer', 8),
        '()': ('Unit', 'unitC', 1)}

ALIGN = {}
MODULE = {}
KIND = {}
PARAMS = {}

def paren(s):
    return s if re.match(r'^[\w.]+$', s) else '(' + s + ')'

def split_args(s):
    out, depth, cur = [], 0, ''
    for ch in s:
        if ch == '<': depth += 1
        if ch == '>': depth -= 1
        if ch == ',' and depth == 0:
            out.append(cur.strip()); cur = ''
        else:
            cur += ch
    out.append(cur.strip())
    return out

def ty(t, mod, env):
    """(lean type, codec, alignment)"""
    t = t.strip()
    if t in env:
        return env[t], env[t].lower() + 'C', 8
    if t in PRIM:
        return PRIM[t]
    m = re.match(r'\[(\w+); (\d+)\]$', t)
    if m:
        a = ty(m.group(1), mod, env)
        return f'Vector {paren(a[0])} {m.group(2)}', f'arrayN {m.group(2)} {paren(a[1])}', a[2]
    m = re.match(r'(\w+)<(.*)>$', t)
    if m:
        head, args = m.group(1), split_args(m.group(2))
        a = [ty(x, mod, env) for x in args]
        if head == 'SsbhArray':
            return f'List {paren(a[0][0])}', f'array {paren(a[0][1])}', 8
        if head == 'RelPtr64':
            return f'Option {paren(a[0][0])}', f'relPtr {paren(a[0][1])}', 8
        if head == 'SsbhEnum64':
            return f'Option {paren(a[0][0])}', f'enum64 {paren(a[0][1])}', 8
        q = qual(head, mod)
        return q + ''.join(' ' + paren(x[0]) for x in a), q + '.codec' + ''.join(' ' + paren(x[1]) for x in a), 8
    q = qual(t, mod)
    return q, q + ('.tagged' if KIND[t] == 'tagged' else '.codec'), ALIGN[(MODULE_OF(t, mod), t)]

def MODULE_OF(name, mod):
    if (mod, name) in ALIGN: return mod
    for m in ['Vec', 'Matl', 'Mesh']:
        if (m, name) in ALIGN: return m
    raise KeyError((mod, name))

def qual(name, mod):
    m = MODULE_OF(name, mod)
    return name if m == 'Vec' else f'{m}.{name}'

def opt(attrs, what):
    for a in attrs:
        if a.startswith('#[ssbhwrite('):
            m = re.search(what + r' = (\d+)', a)
            if m: return int(m.group(1))
    return None

def repr_of(attrs):
    for a in attrs:
        m = re.match(r'#\[ssbhwrite\(repr\((\w+)\)\)\]', a)
        if m: return PRIM[m.group(1)][2]
    return None

def fields(body):
    """(name, type, attrs) of named fields"""
    out, attrs = [], []
    for b in body:
        if b.startswith('#['):
            attrs.append(b); continue
        m = re.match(r'(?:pub )?(\w+): (.*?),?$', b)
        out.append((m.group(1), m.group(2), attrs)); attrs = []
    return out

def lname(n):
    return {'data': 'data', 'name': 'name'}.get(n, n)

def structure(q, cite, fs, mod, env, pad, brpad, params, indent=''):
    """Lean text for a struct"""
    out = []
    ps = ''.join(f' ({p} : Type)' for p in params)
    out.append(f'/-- {cite} -/')
    out.append(f'structure {q}{ps} where')
    tys = []
    for (n, t, _) in fs:
        T = ty(t, mod, env); tys.append(T)
        out.append(f'  {n} : {T[0]}')
    if params:
        out.append('  deriving DecidableEq, Repr')
    else:
        out.append('  deriving DecidableEq, Repr')
    out.append('')
    al = max(T[2] for T in tys)
    pc = ''.join(f' ({p.lower()}C : Codec {p})' for p in params)
    pi = ''.join(f' {{{p} : Type}}' for p in params)
    body = ''
    for k, T in enumerate(tys):
        last = k == len(tys) - 1
        if last:
            body += f'{paren(T[1])}' + ')' * (len(tys) - 1)
        else:
            body += f'(pair {paren(T[1])} '
    names = [f[0] for f in fs]
    to = 'fun v => (' + ', '.join('v.' + n for n in names) + ')'
    pat = ', '.join(names)
    fr = (f'fun ({pat}) => ⟨{pat}⟩' if len(names) > 1 else f'fun {pat} => ⟨{pat}⟩')
    inner = f'iso {paren(body) if len(names)==1 else body}\n    ({to})\n    ({fr})'
    if pad and brpad:
        inner = f'padAfter {pad} (' + inner + ')'
    elif pad:
        inner = f'padAfterWrite {pad} (' + inner + ')'
    qq = q + ''.join(' ' + p for p in params)
    out.append(f'def {q}.codec{pi}{pc} : Codec {paren(qq)} :=\n  struct {al} ({inner})')
    out.append('')
    cls = 'LawW' if pad and not brpad else 'LawC'
    hyp = ''.join(f' [LawF {p.lower()}C]' for p in params)
    app = q + '.codec' + ''.join(f' {p.lower()}C' for p in params)
    out.append(f'instance{pi}{"".join(f" {{{p.lower()}C : Codec {p}}}" for p in params)}{hyp} : {cls} {paren(app)} := by\n  unfold {q}.codec; infer_instance')
    out.append('')
    return out, al

def deps(it, items):
    out = []
    for b in it.body:
        for w in re.findall(r'\w+', b):
            if w in items and w != it.name:
                out.append(w)
    return out

def topo(items, order):
    done, out = set(), []
    def visit(n):
        if n in done: return
        done.add(n)
        for d in deps(items[n], items): visit(d)
        out.append(n)
    for n in order: visit(n)
    return out

def emit(path, mod, top, magic, skip=(), doc=''):
    items, order = parse(path, mod)
    items = {k: v for k, v in items.items() if k not in skip}
    order = [o for o in order if o in items]
    out = []
    src = f'/repo/ssbh_lib/src/{path}'
    for n in topo(items, order):
        it = items[n]
        KIND[n] = it.kind
        cite = f'{src}:{it.lines[0]}-{it.lines[1]}'
        if n == top:
            continue
        r = repr_of(it.attrs)
        if it.kind == 'enum' and r:
            vs = re.findall(r'(\w+) = (0x[0-9a-fA-F]+|\d+)', ' '.join(it.body))
            vals = [int(v, 0) for _, v in vs]
            ALIGN[(mod, n)] = r
            if len(vals) > 100:
                assert sorted(vals) == list(range(len(vals)))
                tags = f'(List.range {len(vals)})'
                out += [f'/-- {cite}: the tags are 0 to {len(vals)-1}. -/', f'abbrev {n} := ReprEnum {tags}',
                        f'def {n}.codec : Codec {n} := reprEnum {r} {tags}',
                        f'instance : LawC {n}.codec :=\n  reprEnum_law (by decide) (by intro t ht; simp only [List.mem_range] at ht; omega)', '']
            else:
                tags = '[' + ', '.join(map(str, vals)) + ']'
                out += [f'/-- {cite} -/', f'abbrev {n} := ReprEnum {tags}']
                for (vn, vv) in vs:
                    out.append(f'def {n}.{vn} : {n} := ⟨{int(vv,0)}, by decide⟩')
                out += [f'def {n}.codec : Codec {n} := reprEnum {r} {tags}',
                        f'instance : LawC {n}.codec := reprEnum_law (by decide) (by decide)', '']
        elif it.kind == 'struct' and 'bitfield' in ' '.join(it.attrs):
            ALIGN[(mod, n)] = 4
            out += [f'/-- {cite}: the 32 bits. -/', f'abbrev {n} := UInt32', f'def {n}.codec : Codec {n} := bitfield32',
                    f'instance : LawC {n}.codec := inferInstanceAs (LawC bitfield32)', '']
        elif it.kind == 'struct':
            fs = fields(it.body)
            pad = opt(it.attrs, 'pad_after')
            brpad = any('br(pad_after' in a for a in fs[-1][2])
            if brpad: assert f'pad_after = {pad})' in ' '.join(fs[-1][2])
            for f in fs[:-1]: assert not f[2], (n, f)
            env = {p: p for p in it.params}
            txt, al = structure(n, cite, fs, mod, env, pad, brpad, it.params)
            ALIGN[(mod, n)] = al
            out += txt
        elif it.kind == 'tagged':
            vs = []
            for b in it.body:
                m = re.match(r'(\d+)(?:u64)? =>\s+(\w+)\((.*)\),?$', b)
                vs.append((int(m.group(1)), m.group(2), m.group(3)))
            T = [ty(v[2], mod, {}) for v in vs]
            al = max(t[2] for t in T)
            ALIGN[(mod, n)] = al
            out += [f'/-- {cite} -/', f'inductive {n} where']
            out += [f'  | {v[1]} (v : {t[0]})' for v, t in zip(vs, T)]
            out += ['  deriving DecidableEq, Repr', '']
            out += [f'def {n}.tagged : Tagged {n} where', '  tag']
            out += [f'    | .{v[1]} _ => {v[0]}' for v in vs]
            out += [f'  align := {al}', '  size']
            out += [f'    | .{v[1]} v => {t[1]}.size v' if not t[1].startswith('(') else '' for v, t in zip(vs, T)]
            out += ['  write v w :=', '    match v with']
            out += [f'    | .{v[1]} v => (struct {al} {paren(t[1])}).write v w' for v, t in zip(vs, T)]
            out += ['  read tag b p :=']
            for k, (v, t) in enumerate(zip(vs, T)):
                out.append(f'    {"else " if k else ""}if tag = {v[0]} then mapRead .{v[1]} ((struct {al} {paren(t[1])}).read b p)')
            out += ['    else .error .badTag', '']
            out += [f'instance : LawT {n}.tagged where', '  lawful := ⟨by intro v; cases v <;> simp [%s.tagged], by decide, by' % n,
                    '    intro v', '    cases v with']
            for v, t in zip(vs, T):
                out.append(f'    | {v[1]} v => exact variant_law (al := {al}) (a := {t[1]}) (f := {n}.{v[1]}) (fun _ => rfl) (fun _ _ => rfl)⟩' if v is vs[-1] else
                           f'    | {v[1]} v => exact variant_law (al := {al}) (a := {t[1]}) (f := {n}.{v[1]}) (fun _ => rfl) (fun _ _ => rfl)')
            out += ['  total := by', '    intro v w e h', '    cases v with']
            for v, t in zip(vs, T):
                out.append(f'    | {v[1]} v => exact variant_total (al := {al}) (a := {t[1]}) (f := {n}.{v[1]}) (fun _ => rfl) h')
            out.append('')
        else:
            raise Exception(n)
    # the top level enum
    res = [f'import Verif.Lib.File']
    if mod != 'Vec': res.append('import Verif.Formats.Vectors')
    if mod == 'Nrpd': res.append('import Verif.Formats.Matl')
    res += ['/-!', f'# {doc}', '', f'Types of {src}.', 'Written by tools/gen_formats.py from the Rust definitions.', '-/', '']
    if mod == 'Vec':
        res += ['namespace Verif', ''] + out + ['end Verif']
        open(OUT + 'Vectors.lean', 'w').write('\n'.join(res) + '\n')
        return
    it = items[top]
    variants = []
    attrs = []
    k = 0
    while k < len(it.body):
        b = it.body[k]
        if b.startswith('#['):
            attrs.append(b); k += 1; continue
        ver = re.search(r'major_version == (\d+) &&\s+minor_version == (\d+)', ' '.join(attrs))
        m = re.match(r'(\w+)\((.*)\),$', b)
        m1 = re.match(r'(\w+) \{ (.*) \},$', b)
        if m:
            variants.append((m.group(1), 'tuple', m.group(2), attrs, ver.groups()))
        elif m1:
            variants.append((m1.group(1), 'named', fields(split_args(m1.group(2))), attrs, ver.groups()))
        else:
            m = re.match(r'(\w+) \{$', b)
            body = []
            k += 1
            while it.body[k] != '},':
                body.append(it.body[k]); k += 1
            variants.append((m.group(1), 'named', fields(body), attrs, ver.groups()))
        attrs = []
        k += 1
    cite = f'{src}:{it.lines[0]}-{it.lines[1]}'
    pad = opt(it.attrs, 'pad_after')
    al0 = opt(it.attrs, 'align_after')
    V = []
    for (vn, kind, data, at, ver) in variants:
        al = opt(at, 'align_after') or al0 or 1
        assert opt(at, 'pad_after') is None
        if kind == 'named':
            assert not pad
            txt, _ = structure(vn + 'Data', f'The fields of `{top}::{vn}`, {cite}, with the writer of the enum for this variant.', data, mod, {}, None, False, [])
            out += txt
            V.append((vn, f'{mod}.{vn}Data', f'{mod}.{vn}Data.codec', ver, al))
        else:
            T = ty(data, mod, {})
            c = T[1]
            c = f'padAfterWrite {pad} {paren(c)}' if pad else c
            V.append((vn, T[0], f'struct 8 {paren(c)}', ver, al))
    res += ['namespace Verif', f'namespace {mod}', ''] + out + [f'end {mod}', '']
    res += [f'/-- {cite} -/', f'inductive {top} where'] + [f'  | {v[0]} (v : {v[1]})' for v in V] + ['  deriving DecidableEq, Repr', '']
    res += [f'/-- {cite}, and the magic from /repo/ssbh_lib/src/lib.rs:300-309. -/', f'def {top}.format : Format {top} where']
    res += [f'  magic := [{", ".join(hex(ord(c)) for c in magic)}] -- {magic}', '  version']
    res += [f'    | .{v[0]} _ => ({v[3][0]}, {v[3][1]})' for v in V]
    res += ['  size']
    res += [f'    | .{v[0]} v => {paren(v[2])}.size v' for v in V]
    res += ['  write v w :=', '    match v with']
    res += [f'    | .{v[0]} v => {paren(v[2])}.write v w' for v in V]
    res += ['  read major minor b p :=']
    for k, v in enumerate(V):
        res.append(f'    {"else " if k else ""}if major = {v[3][0]} ∧ minor = {v[3][1]} then mapRead .{v[0]} ({paren(v[2])}.read b p)')
    res += ['    else .error .badTag', '  alignAfter']
    res += [f'    | .{v[0]} _ => {v[4]}' for v in V]
    res.append('')
    res += [f'instance : LawFormat {top}.format where', '  magic := rfl', '  lawful := by', '    intro v', '    cases v with']
    for v in V:
        res.append(f'    | {v[0]} v => exact format_variant_law {"(al := 8) " if not v[2].startswith("struct") else ""}(c := {v[2]}) (f := {top}.{v[0]}) rfl (fun _ => rfl) (fun _ _ => rfl)')
    res += ['  total := by', '    intro v w e h', '    cases v with']
    for v in V:
        res.append(f'    | {v[0]} v => exact format_variant_total (c := {v[2]}) (f := {top}.{v[0]}) (fun _ => rfl) h')
    res += [f'  align := by intro v; cases v <;> simp [{top}.format]', '  version := by', '    intro major minor b p v p\' h', f'    simp only [{top}.format] at h']
    for v in V:
        res += ['    split at h', '    · rename_i hv; obtain ⟨x, rfl⟩ := mapRead_ok h; obtain ⟨rfl, rfl⟩ := hv; rfl']
    res += ['    cases h', '']
    res += ['end Verif']
    open(OUT + mod + '.lean', 'w').write('\n'.join(res) + '\n')

FORMATS = [
    (lambda f: f('vectors.rs', 'Vec', None, None, doc='Vectors and matrices')),
    (lambda f: f('formats/nlst.rs', 'Nlst', 'Nlst', 'TSLN', doc='Nlst')),
    (lambda f: f('formats/shdr.rs', 'Shdr', 'Shdr', 'RDHS', doc='Shdr')),
    (lambda f: f('formats/modl.rs', 'Modl', 'Modl', 'LDOM', doc='Modl')),
    (lambda f: f('formats/skel.rs', 'Skel', 'Skel', 'LEKS', doc='Skel')),
    (lambda f: f('formats/hlpb.rs', 'Hlpb', 'Hlpb', 'BPLH', doc='Hlpb')),
    (lambda f: f('formats/nufx.rs', 'Nufx', 'Nufx', 'XFUN', doc='Nufx')),
    (lambda f: f('formats/anim.rs', 'Anim', 'Anim', 'MINA', doc='Anim')),
    (lambda f: f('formats/mesh.rs', 'Mesh', 'Mesh', 'HSEM', skip=('Attributes', 'VertexWeightV10'), doc='Mesh')),
    (lambda f: f('formats/matl.rs', 'Matl', 'Matl', 'LTAM', doc='Matl')),
    (lambda f: f('formats/nrpd.rs', 'Nrpd', 'Nrpd', 'DPRN', doc='Nrpd')),
]

if __name__ == '__main__':
    for f in FORMATS: f(emit)
