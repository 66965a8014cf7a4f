#!/usr/bin/env python3
"""Writes lean/Verif/Formats/Cut.lean: the instances of `Ext` and `CutF` for the types in lean/Verif/Formats/*.lean."""
import re, os
D = os.path.join(os.path.dirname(os.path.abspath(__file__)), '../lean/Verif/Formats/')
MODS = ['Vectors', 'Nlst', 'Shdr', 'Modl', 'Skel', 'Hlpb', 'Nufx', 'Anim', 'Mesh', 'Matl', 'Nrpd']
out = ['''import Verif.Lib.Cut
import Verif.Formats.Ssbh
/-!
# The ten formats with more or less input

Written by tools/gen_cut.py.
-/

namespace Verif

/-- A format whose reader does not mind more input. -/
class ExtF (f : Format α) : Prop where
  read : ∀ major minor b rest p, ExtR (f.read major minor b p) (f.read major minor (b ++ rest) p)

/-- A format which needs everything that was written but padding. -/
class CutFormat (f : Format α) : Prop where
  align : ∀ v, f.alignAfter v ≤ 8
  cut : ∀ v, CutAt (f.codec v) False v
''']
for mod in MODS:
    ls = open(D + mod + '.lean').read().split('\n')
    ns = ''
    i = 0
    while i < len(ls):
        l = ls[i]
        if l.startswith('namespace ') and l != 'namespace Verif': ns = l.split()[1] + '.'
        if l.startswith('end ') and l != 'end Verif': ns = ''
        m = re.match(r'structure (\w+)(.*) where', l)
        if m:
            n, ps = m.groups()
            params = re.findall(r'\((\w+) : Type\)', ps)
            q = ns + n
            b = lambda *k: ''.join(f' {{{p} : Type}} {{{p.lower()}C : Codec {p}}}' + ''.join(f' [{x} {p.lower()}C]' for x in k) for p in params)
            body = '\n'.join(ls[i:]).split(f'def {n}.codec')[1].split('\n\n')[0]
            k = 'CutP' if 'padAfterWrite' in body else 'CutF'
            c = q + '.codec' + ''.join(' ' + p.lower() + 'C' for p in params)
            c = f'({c})' if params else c
            out.append(f'instance{b("Ext")} : Ext {c} := by unfold {q}.codec; infer_instance')
            out.append(f'instance{b("CutF")} : {k} {c} := by unfold {q}.codec; infer_instance')
            if n == 'MeshInner': out.append(f'instance{b()} : Ends {c} := by unfold {q}.codec; infer_instance')
        m = re.match(r'abbrev (\w+) := (.*)', l)
        if m:
            for k in ('Ext', 'CutF', 'Ends'):
                out.append(f'instance : {k} {ns}{m.group(1)}.codec := by unfold {ns}{m.group(1)}.codec; infer_instance')
        m = re.match(r'inductive (\w+) where', l)
        if m:
            n = m.group(1); q = ns + n
            vs = []
            i += 1
            while not ls[i].startswith('  deriving'):
                vs.append(re.match(r'  \| (\w+)', ls[i]).group(1)); i += 1
            kind = None
            for j, x in enumerate(ls[i:]):
                if x.startswith(f'def {n}.tagged'): kind = 'T'; d = 'tagged'; break
                if x.startswith(f'def {n}.format'): kind = 'F'; d = 'format'; break
            codecs = {}
            seen = False
            for x in ls[i + j:]:
                if x.startswith('  write '): seen = True
                if x.startswith('  read '): break
                m = re.match(r'    \| \.(\w+) v => (.*)\.write v w', x)
                if seen and m: codecs[m.group(1)] = m.group(2)
            args = 'tag b rest p' if kind == 'T' else 'major minor b rest p'
            t = [f'instance : Ext{kind} {q}.{d} where', f'  read {args} := by', f'    simp only [{q}.{d}]']
            for v in vs:
                t += [f'    refine ite_ext (mapRead_ext (Ext.read (c := {codecs[v]}) b rest p)) ?_']
            t += ['    exact .error']
            t += [f'instance : {"CutT" if kind == "T" else "CutFormat"} {q}.{d} where']
            t += ['  align := by decide'] if kind == 'T' else ['  align v := by cases v <;> simp only [%s.format] <;> decide' % q]
            t += ['  cut v := by', '    cases v with']
            for v in vs:
                t += [f'    | {v} v => exact variant_cut (a := {codecs[v]}) (f := {q}.{v}) (fun _ => rfl) (fun _ _ => rfl)']
            out.append('\n'.join(t))
        i += 1
out.append('\nend Verif\n')
open(D + 'Cut.lean', 'w').write('\n'.join(out))
