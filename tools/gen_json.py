#!/usr/bin/env python3
"""Writes lean/Verif/Json/Formats.lean (the derived JSON implementations of the types in /repo/ssbh_lib/src, with the names of
the Rust definitions), Json/Kept.lean (what they keep), Json/FormatLaws.lean (that they keep it), Json/FormatOrder.lean (that the
order of entries does not matter), Json/Shapes.lean (the documents) and Json/ShapesSame.lean (that they have these documents).

Usage: python3 gen_json.py"""
import os, re
import gen_formats as G
from gen_formats import paren, split_args, fields, topo, repr_of

OUT = os.path.join(os.path.dirname(os.path.abspath(__file__)), '../lean/Verif/Json/')
MODEL, KEPT, LAWS, ORDER, SHAPE, SAME = [], [], [], [], [], []
NUMBERS = []

INT = {t: f'(.int {lo} {hi})' for t, lo, hi in [('u8', 0, 255), ('u16', 0, 65535), ('u32', 0, 4294967295), ('u64', 0, 18446744073709551615),
    ('i16', '(-32768)', 32767), ('i32', '(-2147483648)', 2147483647)]}
PRIM = {t: (f'JCodec.{t}', '.plain', f'JLaw.{t}', INT[t]) for t in INT}
PRIM['f32'] = ('JCodec.f32', '.float', 'JLaw.f32', '.float')
PRIM['SsbhString'] = PRIM['SsbhString8'] = ('JCodec.ssbhString', '(.pointer .text)', 'JLaw.ssbhString', '(.opt .ctext)')
PRIM['SsbhByteBuffer'] = ('JCodec.hex', '.plain', 'JLaw.hex', '.hex')
PRIM['()'] = ('JCodec.unit', '.unit', 'JLaw.unit', '.unit')

def ap(f, *a):
    return '(' + f + ''.join(' ' + x for x in a) + ')'

def jty(t, mod, env):
    """(codec, kept, law)"""
    t = t.strip()
    if t in env:
        p = env[t].lower()
        return f'{p}J', f'{p}S', f'{p}L', f'{p}S'
    if t in PRIM: return PRIM[t]
    m = re.match(r'\[(\w+); (\d+)\]$', t)
    if m:
        a = jty(m.group(1), mod, env)
        return ap('JCodec.arrayN', m.group(2), a[0]), ap('.vector', a[1]), a[2] + '.arrayN', ap('.array', m.group(2), a[3])
    m = re.match(r'(\w+)<(.*)>$', t)
    if m:
        head, args = m.group(1), split_args(m.group(2))
        if head == 'CString': return '(JCodec.newtype JCodec.cstr)', '.text', 'JLaw.cstr.newtype', '.ctext'
        a = [jty(x, mod, env) for x in args]
        for (h, c, s, l, d) in [('SsbhArray', 'array', 'list', 'array', 'list'), ('RelPtr64', 'relPtr', 'pointer', 'relPtr', 'opt'),
                                ('SsbhEnum64', 'enum64', 'tagged', 'enum64', 'tagged'), ('Ptr64', 'ptr', 'pointer', 'ptr', 'opt'),
                                ('Vec', 'vec', 'list', 'vec', 'list')]:
            if head == h: return ap('JCodec.' + c, a[0][0]), ap('.' + s, a[0][1]), a[0][2] + '.' + l, ap('.' + d, a[0][3])
        q = G.qual(head, mod)
        # the arguments of a generic struct have no expected type in the laws
        return ap(q + '.json', *[x[0] for x in a]), ap(q + '.kept', *[x[1] for x in a]), ap(q + '.json_law', *[x[2] for x in a]), ap(q + '.shape', *[x[3] for x in a])
    q = G.qual(t, mod)
    return q + '.json', q + '.kept', q + '.json_law', q + '.shape'

def wrap(head, items, tail, sep=', '):
    """a list over lines"""
    lines, cur = [], head
    for k, i in enumerate(items):
        i += sep if k < len(items) - 1 else tail
        if len(cur) + len(i) > 118:
            lines.append(cur.rstrip()); cur = '    '
        cur += i
    return '\n'.join(lines + [cur])

def struct(q, cite, fs, mod, env, params):
    T = [jty(t, mod, env) for (_, t, _) in fs]
    names = [f[0] for f in fs]
    pi = ''.join(f' {{{p} : Type}}' for p in params)
    qq = paren(q + ''.join(' ' + p for p in params))
    pc = ''.join(f' ({p.lower()}J : JCodec {p})' for p in params)
    ps = ''.join(f' ({p.lower()}S : JSpec {p})' for p in params)
    rec = ''
    law = ''
    for k, (n, t) in enumerate(zip(names, T)):
        last = k == len(T) - 1
        rec += f'(.field "{n}" {t[0]}' + ')' * len(T) if last else f'(.and (.field "{n}" {t[0]}) '
        law += f'(.field "{n}" {t[2]}' + ')' * len(T) if last else f'(.and (.field "{n}" {t[2]}) '
    to = 'fun v => (' + ', '.join('v.' + n for n in names) + ')'
    pat = ', '.join(names)
    fr = f'fun ({pat}) => ⟨{pat}⟩' if len(names) > 1 else f'fun {pat} => ⟨{pat}⟩'
    MODEL.append(f'/-- {cite} -/\ndef {q}.json{pi}{pc} : JCodec {qq} :=\n  JCodec.struct {rec}\n    ({to})\n    ({fr})\n')
    fin = ' && ('.join(f'{sp(t[1])}.fin v.{n}' for n, t in zip(names, T)) + ')' * (len(T) - 1)
    norm = ', '.join(f'{sp(t[1])}.norm v.{n}' for n, t in zip(names, T))
    KEPT.append(f'def {q}.kept{pi}{ps} : JSpec {qq} where\n  isNull _ := false\n  fin v := {fin}\n  norm v := ⟨{norm}⟩\n')
    hy = ''.join(f' {{{p.lower()}J : JCodec {p}}} {{{p.lower()}S : JSpec {p}}}' for p in params) + ''.join(
        f' ({p.lower()}L : JLaw {p.lower()}J {p.lower()}S)' for p in params)
    aj = paren(f'{q}.json' + ''.join(f' {p.lower()}J' for p in params))
    asp = paren(f'{q}.kept' + ''.join(f' {p.lower()}S' for p in params))
    lst = ', '.join(f'"{n}"' for n in names)
    LAWS.append(f'theorem {q}.json_law{pi}{hy} : JLaw {aj} {asp} :=\n  (JLaw.struct (.rec {law}) (show [{lst}].Nodup by decide) (fun _ => rfl)).congr (fun _ => rfl) (fun _ => rfl) (fun _ => rfl)\n'.replace('(.rec (', '((').replace('.rec ', ''))

    inst = ''.join(f' {{{p.lower()}J : JCodec {p}}} [JOrd {p.lower()}J]' for p in params)
    ORDER.append(f'instance{pi}{inst} : JOrd {aj} := by unfold {q}.json; infer_instance\n')
    sh = ''.join(f' ({p.lower()}S : Shape)' for p in params)
    SHAPE.append(f'/-- {cite} -/\ndef {q}.shape{sh} : Shape :=\n' + wrap('  .struct [', [
        f'{".may" if t[1].startswith("Ptr64") else ".need"} "{n}" {t[0][3]}' for n, t in zip(names, zip(T, [f[1] for f in fs]))], ']') + '\n')
    inst = ''.join(f' {{{p.lower()}J : JCodec {p}}} {{{p.lower()}S : Shape}} [HasShape {p.lower()}J {p.lower()}S none]' for p in params)
    ash = paren(f'{q}.shape' + ''.join(f' {p.lower()}S' for p in params))
    SAME.append(f'instance{pi}{inst} : HasShape {aj} {ash} none := HasShape.struct (fun _ => rfl)\n')

def sp(s):
    """a specification before a projection"""
    if s.startswith('(.'): return '(JSpec' + s[1:].replace('(.', '(JSpec.').replace(' .', ' JSpec.') + ')' if False else '(JSpec' + re.sub(r'(?<=[( ])\.', 'JSpec.', s[1:])
    if s.startswith('.'): return 'JSpec' + s
    return re.sub(r'(?<=[( ])\.', 'JSpec.', s)

def enum(q, cite, vs):
    """an externally tagged enum; vs: (name, (codec, kept, law))"""
    m = [f'/-- {cite} -/', f'def {q}.json : JCodec {q} where', '  ser']
    m += [f'    | .{n} v => .obj [("{n}", {t[0]}.ser v)]' for n, t in vs]
    m += ['  de', '    | .obj [(n, j)] =>']
    for k, (n, t) in enumerate(vs):
        m.append(f'      {"else " if k else ""}if n = "{n}" then ({t[0]}.de j).map .{n}')
    m += ['      else none', '    | _ => none', '  miss := none', '']
    MODEL.append('\n'.join(m))
    s = [f'def {q}.kept : JSpec {q} where', '  isNull _ := false', '  fin']
    s += [f'    | .{n} v => {sp(t[1])}.fin v' for n, t in vs]
    s += ['  norm']
    s += [f'    | .{n} v => .{n} ({sp(t[1])}.norm v)' for n, t in vs]
    s.append('')
    KEPT.append('\n'.join(s))
    l = [f'theorem {q}.json_law : JLaw {q}.json {q}.kept where', '  null v := by cases v <;> simp [%s.json, %s.kept]' % (q, q),
         '  back v := by', '    cases v with']
    for k, (n, t) in enumerate(vs):
        l.append(f'    | {n} v =>')
        l.append(f'      have h := {t[2]}.back v')
        l.append(f'      exact back_variant (s := {sp(t[1])}) (t := {q}.kept) (f := {q}.{n}) h rfl rfl')
    l += ['  same v hv := by', '    cases v with']
    for n, t in vs:
        l.append(f'    | {n} v => exact congrArg (fun j => J.obj [("{n}", j)]) ({t[2]}.same v hv)')
    l.append('')
    LAWS.append('\n'.join(l))
    o = [f'instance : JOrd {q}.json := by', '  refine ord_of_single (fun n j =>']
    for k, (n, t) in enumerate(vs):
        o.append(f'      {"else " if k else ""}if n = "{n}" then ({t[0]}.de j).map .{n}')
    o += ['      else none) (fun _ _ => rfl) ?_ (fun _ => rfl) ?_', '  · intro l hl', '    match l with', '    | [] => rfl',
          '    | [_] => exact absurd rfl hl', '    | _ :: _ :: _ => rfl', '  · intro n a b hs',
          '    rw [' + ', '.join(f'JOrd.step (c := {t[0]}) hs' for t in dict.fromkeys(t for _, t in vs)) + ']', '']
    ORDER.append('\n'.join(o))
    SHAPE.append(f'/-- {cite} -/\ndef {q}.shape : Shape :=\n' + wrap('  .variants [', [f'("{n}", {t[3]})' for n, t in vs], ']') + '\n')
    o = [f'instance : HasShape {q}.json {q}.shape none := by', '  refine HasShape.choice (fun n j =>']
    for k, (n, t) in enumerate(vs):
        o.append(f'      {"else " if k else ""}if n = "{n}" then ({t[0]}.de j).map .{n}')
    o += ['      else none) (fun _ _ => rfl) ?_ ?_ (fun n j => ?_) rfl', '  · intro l hl', '    match l with', '    | [] => rfl',
          '    | [_] => exact absurd rfl hl', '    | _ :: _ :: _ => rfl', '  · intro j h', '    cases j <;> first | rfl | exact absurd rfl (h _)',
          '  · exact ' + ''.join('choice_cons (fun _ => rfl) (' for _ in vs) + 'choice_nil' + ')' * len(vs), '']
    SAME.append('\n'.join(o))

def names_enum(q, cite, vs, tags, nodup):
    lst = ', '.join(f'"{n}"' for n, _ in vs)
    lines, cur = [], '  ['
    for k, (n, _) in enumerate(vs):
        item = f'"{n}"' + (', ' if k < len(vs) - 1 else ']')
        if len(cur) + len(item) > 118:
            lines.append(cur.rstrip()); cur = '   '
        cur += item
    lines.append(cur)
    MODEL.append(f'/-- The names of the variants: {cite} -/\ndef {q}.names : List String :=\n' + '\n'.join(lines) +
                 f'\n\ndef {q}.json : JCodec {q} := JCodec.enumNames {q}.names {tags}\n')
    KEPT.append(f'def {q}.kept : JSpec {q} := .plain\n')
    names = '(by decide +kernel)'
    if len(vs) > 100:
        def code(s):
            a = 0
            for ch in s: a = (a * 31 + ord(ch)) % 2 ** 32
            return a
        codes = [code(n) for n, _ in vs]
        assert len(set(codes)) == len(codes)
        lines, cur = [], '   ['
        for k, c in enumerate(codes):
            item = str(c) + (', ' if k < len(codes) - 1 else ']')
            if len(cur) + len(item) > 118:
                lines.append(cur.rstrip()); cur = '    '
            cur += item
        lines.append(cur)
        LAWS.append(f'/-- Short codes of the names, to compare numbers instead of strings. -/\ndef {q}.codes : List Nat :=\n' + '\n'.join(lines) + '\n')
        LAWS.append(f'theorem {q}.names_nodup : {q}.names.Nodup := by\n  have h : {q}.names.map nameCode = {q}.codes := by decide +kernel\n'
                    f'  exact nodup_of_map (f := nameCode) (by rw [h]; decide +kernel)\n')
        names = f'{q}.names_nodup'
    SHAPE.append(f'/-- The names and numbers of the variants: {cite} -/\ndef {q}.numbers : List (String × Nat) :=\n' +
                 wrap('  [', [f'("{n}", {v})' for n, v in vs], ']') + f'\n\ndef {q}.shape : Shape := .names ({q}.numbers.map (·.1))\n')
    same = '(by decide +kernel)' if len(vs) > 100 else 'rfl'
    SAME.append(f'instance : HasShape {q}.json {q}.shape none := HasShape.ofNumbers {names} {nodup} {same} {same}\n\n'
                f'theorem {q}.json_numbers : JNumbers {q}.json {q}.numbers := JNumbers.of {names} {nodup} {same} {same}\n')
    NUMBERS.append(q)
    ORDER.append(f'instance : JOrd {q}.json := by unfold {q}.json; infer_instance\n')
    LAWS.append(f'theorem {q}.json_law : JLaw {q}.json {q}.kept :=\n  JLaw.enumNames {names} {nodup} (by decide +kernel)\n')

def variants(it):
    out, attrs, k = [], [], 0
    while k < len(it.body):
        b = it.body[k]
        if b.startswith('#['):
            k += 1; continue
        m = re.match(r'(\w+)\((.*)\),$', b)
        m1 = re.match(r'(\w+) \{ (.*) \},$', b)
        if m:
            out.append((m.group(1), 'tuple', m.group(2)))
        elif m1:
            out.append((m1.group(1), 'named', fields(split_args(m1.group(2)))))
        else:
            m = re.match(r'(\w+) \{$', b)
            body = []
            k += 1
            while it.body[k] != '},':
                body.append(it.body[k]); k += 1
            out.append((m.group(1), 'named', fields(body)))
        k += 1
    return out

def emit(path, mod, top, magic, skip=(), doc=''):
    items, order = G.parse(path, mod)
    items = {k: v for k, v in items.items() if k not in skip}
    order = [o for o in order if o in items]
    src = f'/repo/ssbh_lib/src/{path}'
    for n in topo(items, order):
        it = items[n]
        G.ALIGN[(mod, n)] = 0
        q = n if mod == 'Vec' else f'{mod}.{n}'
        cite = f'{src}:{it.lines[0]}-{it.lines[1]}'
        assert not any('serde(' in a for a in it.attrs), n
        assert 'serde(' not in ' '.join(it.body), n
        if it.kind != 'tagged': assert any('derive(Serialize, Deserialize)' in a for a in it.attrs), (n, it.attrs)
        r = repr_of(it.attrs)
        if n == top:
            V = []
            for (vn, kind, data) in variants(it):
                if kind == 'named':
                    struct(f'{mod}.{vn}Data', f'The fields of `{top}::{vn}`, {cite}', data, mod, {}, [])
                    d = f'{mod}.{vn}Data'
                    V.append((vn, (d + '.json', d + '.kept', d + '.json_law', d + '.shape')))
                else:
                    V.append((vn, jty(data, mod, {})))
            enum(top, cite, V)
        elif it.kind == 'enum' and r:
            vs = [(a, int(b, 0)) for a, b in re.findall(r'(\w+) = (0x[0-9a-fA-F]+|\d+)', ' '.join(it.body))]
            if len(vs) > 100:
                vs.sort(key=lambda v: v[1])
                names_enum(q, cite, vs, f'(List.range {len(vs)})', 'List.nodup_range')
            else:
                names_enum(q, cite, vs, '[' + ', '.join(str(v) for _, v in vs) + ']', '(by decide)')
        elif it.kind == 'struct' and 'bitfield' in ' '.join(it.attrs):
            MODEL.append(f'/-- {cite} -/\ndef {q}.json : JCodec {q} := JCodec.bitfield32\n')
            KEPT.append(f'def {q}.kept : JSpec {q} := .plain\n')
            LAWS.append(f'theorem {q}.json_law : JLaw {q}.json {q}.kept := JLaw.bitfield32\n')
            ORDER.append(f'instance : JOrd {q}.json := by unfold {q}.json; infer_instance\n')
            SHAPE.append(f'/-- {cite} -/\ndef {q}.shape : Shape := .bits 4\n')
            SAME.append(f'instance : HasShape {q}.json {q}.shape none := inferInstanceAs (HasShape JCodec.bitfield32 _ none)\n')
        elif it.kind == 'struct':
            struct(q, cite, fields(it.body), mod, {p: p for p in it.params}, it.params)
        elif it.kind == 'tagged':
            vs = []
            for b in it.body:
                m = re.match(r'(\d+)(?:u64)? =>\s+(\w+)\((.*)\),?$', b)
                vs.append((m.group(2), jty(m.group(3), mod, {})))
            enum(q, cite, vs)
        else:
            raise Exception(n)

for f in G.FORMATS: f(emit)

def plain_structs(path, mod, top):
    """the formats which are not SSBH; fields with br(temp) are removed by binread before the derive"""
    items, order = G.parse(path, mod)
    for n in topo(items, order):
        it = items[n]
        if 'bitfield' in ' '.join(it.attrs): continue
        G.ALIGN[(mod, n)] = 0
        assert any('derive(Serialize, Deserialize)' in a for a in it.attrs), n
        if any('br(temp)' in b for b in it.body):
            # binread has to come first
            assert it.attrs[0] == '#[binread]', it.attrs
        fs, attrs = [], []
        for b in it.body:
            if b.startswith('#['):
                attrs.append(b); continue
            if not any('br(temp)' in a for a in attrs): fs += fields([b])
            attrs = []
        struct(n if n == top else f'{mod}.{n}', f'/repo/ssbh_lib/src/{path}:{it.lines[0]}-{it.lines[1]}', fs, mod, {}, [])

PRIM['EntryFlags'] = ('(JCodec.newtype (JCodec.vec JCodec.bitfield16))', '(.list .plain)', 'JLaw.bitfield16.vec.newtype', '(.list (.bits 2))')
plain_structs('formats/meshex.rs', 'MeshEx', 'MeshEx')
plain_structs('formats/adj.rs', 'Adj', 'Adj')

# the enum of all formats: SsbhFile and Versioned are transparent
lib = open(G.SRC + 'lib.rs').read().split('\n')
start = next(i for i, l in enumerate(lib) if l.startswith('pub enum Ssbh {'))
end = next(i for i in range(start, len(lib)) if lib[i] == '}')
vs = re.findall(r'(\w+)\(Versioned<\w+::(\w+)>\)', '\n'.join(lib[start:end]))
assert all(a == b for a, b in vs) and len(vs) == 10
enum('Ssbh', f'/repo/ssbh_lib/src/lib.rs:{start + 1}-{end + 1}; `SsbhFile` and `Versioned` are transparent', [(a, (f'{a}.json', f'{a}.kept', f'{a}.json_law', f'{a}.shape')) for a, _ in vs])

HEAD = {'MODEL': ('Formats', ['Verif.Json.Core', 'Verif.Formats.Ssbh', 'Verif.Formats.MeshEx', 'Verif.Formats.Adj'], 'The JSON of the formats',
                  'The derived implementations of the types in /repo/ssbh_lib/src: the names of the fields and of the variants.'),
        'KEPT': ('Kept', ['Verif.Json.Spec', 'Verif.Formats.Ssbh', 'Verif.Formats.MeshEx', 'Verif.Formats.Adj'], 'What JSON keeps of the formats', 'Specification, see `Verif.Json.Spec`.'),
        'LAWS': ('FormatLaws', ['Verif.Json.Formats', 'Verif.Json.Kept', 'Verif.Json.Laws'], 'The JSON of the formats keeps what is specified', ''),
        'SHAPE': ('Shapes', ['Verif.Json.Shape'], 'The JSON documents of the formats', 'Specification, see `Verif.Json.Shape`: the names of the fields and variants, and the numbers of the variants.'),
        'SAME': ('ShapesSame', ['Verif.Json.FormatLaws', 'Verif.Json.Shapes', 'Verif.Json.ShapeLaws'], 'The JSON of the formats has the specified documents', ''),
        'ORDER': ('FormatOrder', ['Verif.Json.Formats', 'Verif.Json.Order'], 'The order of the entries of the objects of the formats', '')}
for k, (f, imports, title, text) in HEAD.items():
    body = {'MODEL': MODEL, 'KEPT': KEPT, 'LAWS': LAWS, 'ORDER': ORDER, 'SHAPE': SHAPE, 'SAME': SAME}[k]
    head = [f'import {i}' for i in imports] + ['/-!', f'# {title}', ''] + ([text] if text else []) + [
        'Written by tools/gen_json.py from the Rust definitions.', '-/', '', 'namespace Verif', '']
    open(OUT + f + '.lean', 'w').write('\n'.join(head) + '\n' + '\n'.join(body) + '\nend Verif\n')
