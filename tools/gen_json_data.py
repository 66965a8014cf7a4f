#!/usr/bin/env python3
"""Writes lean/Verif/Json/DataFormats.lean (the derived JSON implementations of the types in /repo/ssbh_data/src, with the names
of the Rust definitions), Json/Finite.lean (which values have only finite floats), Json/DataLaws.lean, Json/DataOrder.lean,
Json/DataShapes.lean (the documents) and Json/DataShapesSame.lean (that they have these documents).

Usage: python3 gen_json_data.py"""
import os, re

SRC = '/repo/ssbh_data/src/'
OUT = os.path.join(os.path.dirname(os.path.abspath(__file__)), '../lean/Verif/Json/')
MODEL, FIN, LAWS, ORDER, SHAPE, SAME = [], [], [], [], [], []
LAWS.append('''theorem f32_law : JLaw JCodec.f32 ⟨fun x => !finite x, finite, id⟩ :=
  JLaw.f32.congr (fun v => by simp [JSpec.float, finite]) (fun _ => rfl) (fun _ => rfl)

theorem all_true (l : List α) : (l.all fun _ => true) = true := by simp

theorem usize_law : JLaw JCodec.usize (.exact isUsize) := JLaw.usize
''')

# Rust type -> (codec, finite or None if always, law)
T = {t: (f'JCodec.{t}', None, f'JLaw.{t}', f'(.int {lo if lo == 0 else "(" + str(lo) + ")"} {hi})') for t, lo, hi in [('u16', 0, 2 ** 16 - 1), ('u32', 0, 2 ** 32 - 1),
     ('u64', 0, 2 ** 64 - 1), ('i16', -2 ** 15, 2 ** 15 - 1), ('i32', -2 ** 31, 2 ** 31 - 1)]}
T['bool'] = ('JCodec.boolean', None, 'JLaw.boolean', '.bool')
T['String'] = ('JCodec.string', None, 'JLaw.string', '.text')
T['f32'] = ('JCodec.f32', 'Verif.finite', 'f32_law', '.float')
T['usize'] = ('JCodec.usize', 'Verif.isUsize', 'usize_law', f'(.int 0 {2 ** 64 - 1})')
for q in ['Matl.ParamId', 'Matl.WrapMode', 'Matl.MinFilter', 'Matl.MagFilter', 'Matl.MaxAnisotropy', 'Matl.BlendFactor',
          'Matl.BlendOperation', 'Matl.FillMode', 'Matl.CullMode', 'Skel.BillboardType', 'Anim.GroupType', 'Shdr.ShaderStage']:
    T[q.split('.')[1]] = (q + '.json', None, f'(show JLaw {q}.json .plain from {q}.json_law)', q + '.shape')
for q, fs in [('Vector3', 'xyz'), ('Vector4', 'xyzw'), ('Color4f', 'rgba'),
              ('Matl.UvTransform', ['scale_u', 'scale_v', 'rotation', 'translate_u', 'translate_v'])]:
    FIN.append(f'def {q}.finite (v : {q}) : Bool := ' + ' && '.join(f'Verif.finite v.{f}' for f in fs) + '\n')
    fin = 'fun v => by simp [%s.kept, %s.finite, JSpec.float, Verif.finite, Bool.and_assoc]' % (q, q)
    LAWS.append(f'theorem {q}.json_exact : JLaw {q}.json (.exact {q}.finite) :=\n  {q}.json_law.exact (fun _ => rfl) ({fin}) (fun _ => rfl)\n')
    T['Matl::UvTransform' if q.startswith('Matl') else q] = (q + '.json', q + '.finite', q + '.json_exact', q + '.shape')
q = 'Mesh.BoundingSphere'
FIN.append(f'def {q}.finite (v : {q}) : Bool := v.center.finite && Verif.finite v.radius\n')
LAWS.append(f'theorem {q}.json_exact : JLaw {q}.json (.exact {q}.finite) :=\n  {q}.json_law.exact (fun _ => rfl) '
            '(fun v => by simp [Mesh.BoundingSphere.kept, Mesh.BoundingSphere.finite, Vector3.kept, Vector3.finite, JSpec.float, Verif.finite, Bool.and_assoc]) (fun _ => rfl)\n')
T['BoundingSphere'] = (q + '.json', q + '.finite', q + '.json_exact', q + '.shape')

SIMP = 'JSpec.fields, JSpec.both, JSpec.plain, JSpec.exact, JSpec.list, JSpec.vector, JSpec.optional, all_true'

def ty(t):
    t = t.strip()
    if t in T: return T[t]
    m = re.match(r'\[(.*); (\d+)\]$', t)
    if m:
        c, f, l, s = ty(m.group(1))
        return f'(JCodec.arrayN {m.group(2)} {c})', f and f'(fun a => a.toList.all {f})', l + '.arrayN', f'(.array {m.group(2)} {s})'
    m = re.match(r'(\w+)<(.*)>$', t)
    c, f, l, s = ty(m.group(2))
    if m.group(1) == 'Vec': return f'(JCodec.vec {c})', f and f'(fun l => l.all {f})', l + '.vec', f'(.list {s})'
    if m.group(1) == 'Option':
        return f'(JCodec.option {c})', f and f'(fun o => o.all {f})', f'(JLaw.optional (fin := {f or "fun _ => true"}) {l})', f'(.opt {s})'
    if m.group(1) == 'ParamData':
        return f'(MatlData.ParamData.json {c})', f and f'(MatlData.ParamData.finite {f})', None, f'(MatlData.ParamData.shape {s})'
    raise Exception(t)

def wrap(head, items, tail, sep=', '):
    """a list over lines"""
    lines, cur = [], head
    for k, i in enumerate(items):
        i += sep if k < len(items) - 1 else tail
        if len(cur) + len(i) > 118:
            lines.append(cur.rstrip()); cur = '    '
        cur += i
    return '\n'.join(lines + [cur])

def check(f, v):
    """finite applied"""
    m = re.match(r'\(fun (\w) => (.*)\)$', f)
    if m: return re.sub(r'(?<!\.)\b%s\.' % m.group(1), v + '.', m.group(2), count=1)
    if f.startswith('('): return f'{f} {v}'
    if f.startswith('Verif.'): return f'{f} {v}'
    return v + '.finite'

def struct(q, cite, fs, defaults=None, special={}, texts={}):
    """fs: (name, type); defaults: name -> default value"""
    defaults = defaults or {}
    tys = [special.get(n) or ty(t) for n, t in fs]
    rec = law = ''
    for k, ((n, _), (c, f, l, s)) in enumerate(zip(fs, tys)):
        last = k == len(fs) - 1
        one = f'.fieldOr "{n}" {c} {defaults[n]}' if n in defaults else f'.field "{n}" {c}'
        lone = f'.fieldOr "{n}" {l}' if n in defaults else f'.field "{n}" {l}'
        rec += (f'({one}' + ')' * len(fs)) if last else f'(.and ({one}) '
        law += (f'({lone}' + ')' * len(fs)) if last else f'(.and ({lone}) '
    names = [n for n, _ in fs]
    pat = ', '.join(names)
    to = 'fun v => (' + ', '.join('v.' + n for n in names) + ')'
    fr = f'fun ({pat}) => ⟨{pat}⟩' if len(names) > 1 else f'fun {pat} => ⟨{pat}⟩'
    MODEL.append(f'/-- {cite} -/\ndef {q}.json : JCodec {q} :=\n  JCodec.struct {rec}\n    ({to})\n    ({fr})\n')
    checks = [check(f, 'v.' + n) for (n, _), (c, f, l, s) in zip(fs, tys) if f]
    lst = ', '.join(f'"{n}"' for n in names)
    if checks:
        FIN.append(f'def {q}.finite (v : {q}) : Bool := ' + ' && '.join(checks) + '\n')
        fin = f'{q}.finite'
        unf = f', {q}.finite'
    else:
        fin, unf = '(fun _ => true)', ''
    ors = [f'all_params' for _, t in fs if 'ParamData' in t][:1]
    LAWS.append(f'theorem {q}.json_law : JLaw {q}.json (.exact {fin}) :=\n'
                f'  (JLaw.struct {law} (show [{lst}].Nodup by decide) (fun _ => rfl)).exact (fun _ => rfl)\n'
                f'    (fun v => by simp [{SIMP}{unf}, Bool.and_assoc]) (fun v => by simp [{SIMP}])\n')
    ORDER.append(f'instance : JOrd {q}.json := by unfold {q}.json; infer_instance\n')
    SHAPE.append(f'/-- {cite} -/\ndef {q}.shape : Shape :=\n' + wrap('  .struct [', [
        f'.default "{n}" {s} {texts[n]}' if n in defaults else f'.{"may" if t.startswith("Option<") else "need"} "{n}" {s}'
        for (n, t), (c, f, l, s) in zip(fs, tys)], ']') + '\n')
    h = ''
    if defaults:
        for k, (n, _) in enumerate(fs):
            if k == len(fs) - 1: h += '(HasFields.last inferInstance rfl' if n in defaults else '(inferInstance'
            else: h += '(HasFields.more inferInstance rfl ' if n in defaults else '(HasFields.next '
        h = ' (h := ' + h + ')' * len(fs) + ')'
    SAME.append(f'instance : HasShape {q}.json {q}.shape none :=\n  HasShape.struct{h} (fun _ => rfl)\n')
    short = q.split('.')[-1]
    T[short] = (q + '.json', fin if checks else None, q + '.json_law', q + '.shape')

def enum(q, cite, vs):
    """vs: (Rust name, Lean name, type)"""
    tys = [ty(t) for _, _, t in vs]
    m = [f'/-- {cite} -/', f'def {q}.json : JCodec {q} where', '  ser']
    m += [f'    | .{l} v => .obj [("{n}", {t[0]}.ser v)]' for (n, l, _), t in zip(vs, tys)]
    m += ['  de', '    | .obj [(n, j)] =>']
    for k, ((n, l, _), t) in enumerate(zip(vs, tys)):
        m.append(f'      {"else " if k else ""}if n = "{n}" then ({t[0]}.de j).map .{l}')
    m += ['      else none', '    | _ => none', '  miss := none', '']
    MODEL.append('\n'.join(m))
    f = [f'def {q}.finite : {q} → Bool']
    f += [f'  | .{l} v => ' + (check(t[1], 'v')) if t[1] else f'  | .{l} _ => true' for (n, l, _), t in zip(vs, tys)]
    FIN.append('\n'.join(f) + '\n')
    l_ = [f'theorem {q}.json_law : JLaw {q}.json (.exact {q}.finite) where', f'  null v := by cases v <;> simp [{q}.json, JSpec.exact]',
          '  back v := by', '    cases v with']
    for (n, l, _), t in zip(vs, tys):
        fin = t[1] or '(fun _ => true)'
        l_.append(f'    | {l} v =>')
        l_.append(f'      have h := ({t[2]}.exact (fin := {fin}) (fun _ => rfl) (fun v => by simp [{SIMP}]) (fun v => by simp [{SIMP}])).back v')
        l_.append(f'      exact back_variant (s := .exact {fin}) (t := .exact {q}.finite) (f := {q}.{l}) h rfl rfl')
    l_ += ['  same _ _ := rfl', '']
    LAWS.append('\n'.join(l_))
    o = [f'instance : JOrd {q}.json := by', '  refine ord_of_single (fun n j =>']
    for k, ((n, l, _), t) in enumerate(zip(vs, tys)):
        o.append(f'      {"else " if k else ""}if n = "{n}" then ({t[0]}.de j).map .{l}')
    o += ['      else none) (fun _ _ => rfl) ?_ (fun _ => rfl) ?_', '  · intro l hl', '    match l with', '    | [] => rfl',
          '    | [_] => exact absurd rfl hl', '    | _ :: _ :: _ => rfl', '  · intro n a b hs',
          '    rw [' + ', '.join(f'JOrd.step (c := {t}) hs' for t in dict.fromkeys(t[0] for t in tys)) + ']', '']
    ORDER.append('\n'.join(o))
    SHAPE.append(f'/-- {cite} -/\ndef {q}.shape : Shape :=\n' + wrap('  .variants [', [f'("{n}", {t[3]})' for (n, _, _), t in zip(vs, tys)], ']') + '\n')
    o = [f'instance : HasShape {q}.json {q}.shape none := by', '  refine HasShape.choice (fun n j =>']
    for k, ((n, l, _), t) in enumerate(zip(vs, tys)):
        o.append(f'      {"else " if k else ""}if n = "{n}" then ({t[0]}.de j).map .{l}')
    o += ['      else none) (fun _ _ => rfl) ?_ ?_ (fun n j => ?_) rfl', '  · intro l hl', '    match l with', '    | [] => rfl',
          '    | [_] => exact absurd rfl hl', '    | _ :: _ :: _ => rfl', '  · intro j h', '    cases j <;> first | rfl | exact absurd rfl (h _)',
          '  · exact ' + ''.join('choice_cons (fun _ => rfl) (' for _ in vs) + 'choice_nil' + ')' * len(vs), '']
    SAME.append('\n'.join(o))
    T[q.split('.')[-1]] = (q + '.json', q + '.finite', q + '.json_law', q + '.shape')

def parse(path):
    L = open(SRC + path).read().split('\n')
    out = {}
    i = 0
    while i < len(L):
        if 'derive(Serialize, Deserialize)' in L[i]:
            s = i
            while not re.match(r'pub (struct|enum)', L[i]): i += 1
            e = i
            while L[e] != '}': e += 1
            name = re.match(r'pub (?:struct|enum) (\w+)', L[i]).group(1)
            attrs = [l for l in L[s:i] if 'serde(' in l]
            body, fattr = [], []
            for l in L[i + 1:e]:
                l = l.split('//')[0].strip()
                if not l: continue
                if l.startswith('#['):
                    fattr.append(l); continue
                body.append((l, [a for a in fattr if 'serde(' in a])); fattr = []
            out[name] = (L[i], attrs, body, f'{SRC}{path}:{i + 1}-{e + 1}')
            i = e
        i += 1
    return out

SEEN = []
def auto(path, name, q=None, defaults=None, special={}, rename={}, attrs=(), fattrs={}, texts={}):
    head, at, body, cite = parse(path)[name]
    q = q or name
    assert list(attrs) == at, (name, at)
    SEEN.append((path, name))
    assert {re.match(r'pub (\w+)', b).group(1): a for b, a in body if a} == fattrs, (name, body)
    if head.startswith('pub struct'):
        fs = [re.match(r'pub (\w+): (.*),$', b).groups() for b, _ in body]
        fs = [(n, rename.get(t, t)) for n, t in fs]
        struct(q, cite, fs, defaults, special, texts)
    else:
        vs = [re.match(r'(\w+)\((.*)\),$', b).groups() for b, _ in body]
        enum(q, cite, [(n, rename.get(n, n), t) for n, t in vs])

DEFAULT = '#[cfg_attr(feature = "serde", serde(default))]'
PARSE = '#[cfg_attr(feature = "serde", serde(deserialize_with = "parse_max_anisotropy"))]'

# Modl
auto('modl_data.rs', 'ModlEntryData', 'ModlData.ModlEntryData')
auto('modl_data.rs', 'ModlData')
# Hlpb
auto('hlpb_data.rs', 'AimConstraintData', 'HlpbData.AimConstraintData')
auto('hlpb_data.rs', 'OrientConstraintData', 'HlpbData.OrientConstraintData')
auto('hlpb_data.rs', 'HlpbData')
# Matl
head, at, body, cite = parse('matl_data.rs')['ParamData']
assert [b for b, _ in body] == ['pub param_id: ParamId,', 'pub data: T,'] and not at
SEEN.append(('matl_data.rs', 'ParamData'))
MODEL.append(f'''/-- {cite} -/
def MatlData.ParamData.json (c : JCodec α) : JCodec (MatlData.ParamData α) :=
  JCodec.struct (.and (.field "param_id" Matl.ParamId.json) (.field "data" c)) (fun v => (v.param_id, v.data)) (fun (p, d) => ⟨p, d⟩)
''')
FIN.append('def MatlData.ParamData.finite (f : α → Bool) (v : MatlData.ParamData α) : Bool := f v.data\n')
LAWS.append('''theorem MatlData.ParamData.json_law {c : JCodec α} {f : α → Bool} {s : JSpec α} (h : JLaw c s) (e2 : ∀ v, s.fin v = f v)
    (e3 : ∀ v, s.norm v = v) : JLaw (MatlData.ParamData.json c) (.exact (MatlData.ParamData.finite f)) :=
  (JLaw.struct (.and (.field "param_id" Matl.ParamId.json_law) (.field "data" h)) (show ["param_id", "data"].Nodup by decide)
    (fun _ => rfl)).exact (fun _ => rfl)
    (fun v => by simp [JSpec.fields, JSpec.both, Matl.ParamId.kept, JSpec.plain, MatlData.ParamData.finite, e2])
    (fun v => by simp [JSpec.fields, JSpec.both, Matl.ParamId.kept, JSpec.plain, e3])
''')
ORDER.append('instance {c : JCodec α} [JOrd c] : JOrd (MatlData.ParamData.json c) := by unfold MatlData.ParamData.json; infer_instance\n')
SHAPE.append(f'/-- {cite} -/\ndef MatlData.ParamData.shape (s : Shape) : Shape :=\n  .struct [.need "param_id" Matl.ParamId.shape, .need "data" s]\n')
SAME.append('instance {c : JCodec α} [h : HasShape c s none] : HasShape (MatlData.ParamData.json c) (MatlData.ParamData.shape s) none :=\n  HasShape.struct (fun _ => rfl)\n')

MODEL.append('''/-- `SamplerData::default`, /repo/ssbh_data/src/matl_data.rs:172-193 and /repo/ssbh_lib/src/formats/matl.rs:732-736 -/
def MatlData.SamplerData.default : MatlData.SamplerData where
  wraps := .ClampToEdge
  wrapt := .ClampToEdge
  wrapr := .ClampToEdge
  min_filter := .LinearMipmapLinear
  mag_filter := .Linear
  border_color := ⟨0, 0, 0, 0⟩
  lod_bias := 0
  max_anisotropy := .One

/-- `BlendStateData::default`, /repo/ssbh_data/src/matl_data.rs:265-278 -/
def MatlData.BlendStateData.default : MatlData.BlendStateData where
  source_color := .One
  color_operation := .Add
  destination_color := .Zero
  source_alpha := .One
  alpha_operation := .Add
  destination_alpha := .Zero
  alpha_sample_to_coverage := false

/-- `parse_max_anisotropy`, /repo/ssbh_data/src/matl_data.rs:164-170 -/
def MatlData.maxAnisotropy : JCodec Matl.MaxAnisotropy := JCodec.orNull Matl.MaxAnisotropy.json .One
''')
LAWS.append('''theorem MatlData.maxAnisotropy_law : JLaw MatlData.maxAnisotropy .plain := by
  have h : JLaw Matl.MaxAnisotropy.json (.exact (fun _ => true)) := Matl.MaxAnisotropy.json_law
  exact (h.orNull Matl.MaxAnisotropy.One : JLaw (JCodec.orNull Matl.MaxAnisotropy.json Matl.MaxAnisotropy.One) _)
''')
ORDER.append('instance : JOrd MatlData.maxAnisotropy := by unfold MatlData.maxAnisotropy; infer_instance\n')
SAME.append('instance : HasShape MatlData.maxAnisotropy (.orNull Matl.MaxAnisotropy.shape (.str "One")) none :=\n  HasShape.orNull (d := Matl.MaxAnisotropy.One) inferInstance rfl\n')
def texts(path, name):
    """The documents of the fields of `Default`."""
    src = open(SRC + path).read()
    body = re.search(r'impl Default for %s \{.*?\n        Self \{\n(.*?)\n        \}\n' % name, src, re.S).group(1)
    body = re.sub(r'\{\s*(.*?)\s*\}', lambda m: '{ ' + re.sub(r'\s+', ' ', m.group(1)) + ' }', body, flags=re.S)
    out = {}
    for l in body.split('\n'):
        n, v = re.match(r'\s*(\w+): (.*),$', l).groups()
        if v == 'MaxAnisotropy::default()':
            m = re.search(r'impl Default for MaxAnisotropy \{\s*fn default\(\) -> Self \{\s*Self::(\w+)', open('/repo/ssbh_lib/src/formats/matl.rs').read())
            v = 'MaxAnisotropy::' + m.group(1)
        if '::' in v: v = f'(.str "{v.split("::")[1]}")'
        elif v == '0.0': v = '(.flt 0)'
        elif v in ['true', 'false']: v = f'(.bool {v})'
        else: v = '(.obj [' + ', '.join(f'("{a}", .flt 0)' for a in re.findall(r'(\w+): 0\.0', v)) + '])'
        out[n] = v
    return out
def defaults(path, name, q):
    return {re.match(r'pub (\w+)', b).group(1): f'{q}.default.' + re.match(r'pub (\w+)', b).group(1) for b, _ in parse(path)[name][2]}
auto('matl_data.rs', 'SamplerData', 'MatlData.SamplerData', defaults('matl_data.rs', 'SamplerData', 'MatlData.SamplerData'),
     {'max_anisotropy': ('MatlData.maxAnisotropy', None, 'MatlData.maxAnisotropy_law', '(.orNull Matl.MaxAnisotropy.shape (.str "One"))')},
     attrs=[DEFAULT], fattrs={'max_anisotropy': [PARSE]}, texts=texts('matl_data.rs', 'SamplerData'))
auto('matl_data.rs', 'BlendStateData', 'MatlData.BlendStateData', defaults('matl_data.rs', 'BlendStateData', 'MatlData.BlendStateData'), attrs=[DEFAULT],
     texts=texts('matl_data.rs', 'BlendStateData'))
auto('matl_data.rs', 'RasterizerStateData', 'MatlData.RasterizerStateData')
params = {}
for m in re.finditer(r'pub type (\w+) = ParamData<(.*)>;', open(SRC + 'matl_data.rs').read()):
    params[m.group(1)] = m.group(2)
for n, t in params.items():
    t = {'UvTransform': 'Matl::UvTransform'}.get(t, t)
    c, f, l, s = ty(t)
    fin = f or '(fun _ => true)'
    pfin = f'(MatlData.ParamData.finite {fin})' if f else '(fun _ => true)'
    LAWS.append(f'theorem MatlData.{n}.json_law : JLaw (MatlData.ParamData.json {c}) (.exact {pfin}) :=\n'
                f'  MatlData.ParamData.json_law (f := {fin}) {l} (fun v => by simp [{SIMP}]) (fun _ => rfl)\n')
    T[n] = (f'(MatlData.ParamData.json {c})', f and f'(MatlData.ParamData.finite {f})', f'MatlData.{n}.json_law', f'(MatlData.ParamData.shape {s})')
SIMP0 = SIMP
auto('matl_data.rs', 'MatlEntryData', 'MatlData.MatlEntryData', {'uv_transforms': '[]'}, fattrs={'uv_transforms': [DEFAULT]},
     texts={'uv_transforms': '(.arr [])'})
SIMP = SIMP0
auto('matl_data.rs', 'MatlData')
# Skel
MODEL.append('''/-- `[[f32; 4]; 4]`; the model has these arrays as a `Matrix4x4`. -/
def matrixJson : JCodec Matrix4x4 :=
  JCodec.via (JCodec.arrayN 4 (JCodec.arrayN 4 JCodec.f32))
    (fun m => #v[#v[m.col1.x, m.col1.y, m.col1.z, m.col1.w], #v[m.col2.x, m.col2.y, m.col2.z, m.col2.w],
      #v[m.col3.x, m.col3.y, m.col3.z, m.col3.w], #v[m.col4.x, m.col4.y, m.col4.z, m.col4.w]])
    (fun v => ⟨⟨v[0][0], v[0][1], v[0][2], v[0][3]⟩, ⟨v[1][0], v[1][1], v[1][2], v[1][3]⟩,
      ⟨v[2][0], v[2][1], v[2][2], v[2][3]⟩, ⟨v[3][0], v[3][1], v[3][2], v[3][3]⟩⟩)
''')
FIN.append('def Matrix4x4.finite (m : Matrix4x4) : Bool := m.col1.finite && m.col2.finite && m.col3.finite && m.col4.finite\n')
LAWS.append(f'''theorem matrixJson_law : JLaw matrixJson (.exact Matrix4x4.finite) := by
  have h : JLaw (JCodec.arrayN 4 (JCodec.arrayN 4 JCodec.f32)) (.exact (fun a => a.toList.all (fun b => b.toList.all finite))) :=
    f32_law.arrayN.arrayN.exact (fun _ => rfl) (fun v => by simp [{SIMP}]) (fun v => by simp [{SIMP}])
  refine (h.via (fun _ => rfl)).exact (fun _ => rfl) (fun m => ?_) (fun _ => rfl)
  simp [JSpec.exact, Matrix4x4.finite, Vector4.finite, Bool.and_assoc]
''')
ORDER.append('instance : JOrd matrixJson := by unfold matrixJson; infer_instance\n')
SAME.append('''theorem vector4_eta (v : Vector α 4) : #v[v[0], v[1], v[2], v[3]] = v := by
  apply Vector.ext
  intro i hi
  match i, hi with
  | 0, _ | 1, _ | 2, _ | 3, _ => rfl

instance : HasShape matrixJson (.array 4 (.array 4 .float)) none :=
  HasShape.via inferInstance (fun v => by rw [vector4_eta v[0], vector4_eta v[1], vector4_eta v[2], vector4_eta v[3], vector4_eta v])
''')
T['[[f32; 4]; 4]'] = ('matrixJson', 'Matrix4x4.finite', 'matrixJson_law', '(.array 4 (.array 4 .float))')
auto('skel_data.rs', 'BoneData', 'SkelData.BoneData')
auto('skel_data.rs', 'SkelData')
# MeshEx
auto('meshex_data.rs', 'EntryFlags', 'MeshExData.EntryFlags')
auto('meshex_data.rs', 'MeshObjectGroupData', 'MeshExData.MeshObjectGroupData')
auto('meshex_data.rs', 'MeshExData')
# Adj
auto('adj_data.rs', 'AdjEntryData')
auto('adj_data.rs', 'AdjData')
# Mesh
auto('mesh_data/vector_data.rs', 'VectorData')
auto('mesh_data.rs', 'AttributeData', 'MeshData.AttributeData')
auto('mesh_data.rs', 'VertexWeight', 'MeshData.VertexWeight')
auto('mesh_data.rs', 'BoneInfluence', 'MeshData.BoneInfluence')
auto('mesh_data.rs', 'MeshObjectData', 'MeshData.MeshObjectData')
auto('mesh_data.rs', 'MeshData')
# Anim
auto('anim_data.rs', 'UvTransform')
auto('anim_data.rs', 'Transform')
auto('anim_data.rs', 'TrackValues', rename={'Transform': 'transform', 'UvTransform': 'uvTransform', 'Float': 'float', 'PatternIndex': 'patternIndex',
                                            'Boolean': 'boolean', 'Vector4': 'vector4'})
auto('anim_data.rs', 'TransformFlags', 'AnimData.TransformFlags')
auto('anim_data.rs', 'TrackData', 'AnimData.TrackData')
auto('anim_data.rs', 'NodeData', 'AnimData.NodeData')
auto('anim_data.rs', 'GroupData', 'AnimData.GroupData')
auto('anim_data.rs', 'AnimData')
# Shdr
head, at, body, cite = parse('shdr_data.rs')['DataType']
SEEN.append(('shdr_data.rs', 'DataType'))
names = [re.match(r'(\w+) = \d+,$', b).group(1) for b, _ in body]
MODEL.append(f'/-- {cite} -/\ndef ShdrData.DataType.json : JCodec ShdrData.DataType :=\n  JCodec.variants [' +
             ', '.join(f'("{n}", .{n})' for n in names) + ']\n')
LAWS.append('theorem ShdrData.DataType.json_law : JLaw ShdrData.DataType.json .plain :=\n  JLaw.variants (by decide +kernel) (by intro v; cases v <;> decide)\n')
ORDER.append('instance : JOrd ShdrData.DataType.json := by unfold ShdrData.DataType.json; infer_instance\n')
SHAPE.append(f'/-- {cite} -/\ndef ShdrData.DataType.shape : Shape :=\n' + wrap('  .names [', [f'"{n}"' for n in names], ']') + '\n')
SAME.append('instance : HasShape ShdrData.DataType.json ShdrData.DataType.shape none := HasShape.variants (by decide)\n')
T['DataType'] = ('ShdrData.DataType.json', None, 'ShdrData.DataType.json_law', 'ShdrData.DataType.shape')
for n in ['Buffer', 'Uniform', 'Attribute', 'MetaData', 'ShaderEntryData']: auto('shdr_data.rs', n, 'ShdrData.' + n)
auto('shdr_data.rs', 'ShdrData')

import glob
allt = [(os.path.relpath(f, SRC), n) for f in glob.glob(SRC + '**/*.rs', recursive=True) for n in parse(os.path.relpath(f, SRC))]
assert sorted(allt) == sorted(SEEN), set(allt) ^ set(SEEN)

DATA = ['Verif.Data.DataFiles', 'Verif.Data.ShdrData']
FIN.insert(0, '''/-- Neither an infinity nor a NaN. -/
def finite (x : F32) : Bool := x.toNat / 2 ^ 23 % 256 ≠ 255

/-- Numbers which fit `usize` on a 64 bit machine: all that a Rust program can have. -/
def isUsize (n : Nat) : Bool := n < 2 ^ 64
''')
for name, imports, title, text, body in [
    ('DataFormats', ['Verif.Json.Formats'] + DATA, 'The JSON of the data types', 'The derived implementations of the types in /repo/ssbh_data/src: the names of the fields and of the variants.', MODEL),
    ('Finite', DATA, 'Data with finite floats', 'Specification: all floats of a value are finite (and indices fit the machine). Types without floats have no function here.', FIN),
    ('DataLaws', ['Verif.Json.DataFormats', 'Verif.Json.Finite', 'Verif.Json.FormatLaws'], 'The JSON of the data types keeps everything finite', '', LAWS),
    ('DataOrder', ['Verif.Json.DataFormats', 'Verif.Json.FormatOrder'], 'The order of the entries of the objects of the data types', '', ORDER),
    ('DataShapes', ['Verif.Json.Shapes'], 'The JSON documents of the data types', 'Specification, see `Verif.Json.Shape`: the names of the fields and variants, and the default values.', SHAPE),
    ('DataShapesSame', ['Verif.Json.DataLaws', 'Verif.Json.DataShapes', 'Verif.Json.ShapesSame'], 'The JSON of the data types has the specified documents', '', SAME)]:
    head = [f'import {i}' for i in imports] + ['/-!', f'# {title}', ''] + ([text] if text else []) + [
        'Written by tools/gen_json_data.py from the Rust definitions.', '-/', '', 'namespace Verif', ''] + (['set_option linter.unusedSimpArgs false', ''] if name == 'DataLaws' else [])
    open(OUT + name + '.lean', 'w').write('\n'.join(head) + '\n' + '\n'.join(body) + '\nend Verif\n')
