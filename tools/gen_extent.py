#!/usr/bin/env python3
"""Writes the instances of lean/Verif/Formats/Extent.lean for the types in lean/Verif/Formats/*.lean."""
import re, os
D = os.path.join(os.path.dirname(os.path.abspath(__file__)), '../lean/Verif/Formats/')
MODS = ['Vectors', 'Nlst', 'Shdr', 'Modl', 'Skel', 'Hlpb', 'Nufx', 'Anim', 'Mesh', 'Matl', 'Nrpd']
out = []
for mod in MODS:
    ls = open(D + mod + '.lean').read().split('\n')
    ns = ''
    i = 0
    while i < len(ls):
        l = ls[i]
        if l.startswith('namespace ') and l != 'namespace Verif': ns = l.split()[1] + '.'
        if l.startswith('end ') and l != 'end Verif': ns = ''
        m = re.match(r'structure (\w+)(.*) where', l)
        if m:
            n, ps = m.groups()
            params = re.findall(r'\((\w+) : Type\)', ps)
            fs = []
            i += 1
            while not ls[i].startswith('  deriving'):
                fs.append(ls[i].strip().split(' : ')[0]); i += 1
            q = ns + n
            ty = q + ''.join(' ' + p for p in params)
            ty = f'({ty})' if params else ty
            b1 = ''.join(f' {{{p} : Type}}' for p in params) + ''.join(f' [Extent {p}]' for p in params)
            tup = ', '.join('v.' + f for f in fs)
            tup = f'({tup})' if len(fs) > 1 else tup
            out.append(f'instance{b1} : Extent {ty} := ⟨fun v => extent {tup}⟩')
            pad = ''
            j = i
            while not ls[j].startswith(f'def {n}.codec'): j += 1
            pad = 'padAfter_fits' if 'padAfter ' in ls[j + 1] else 'padAfterWrite_fits' if 'padAfterWrite ' in ls[j + 1] else ''
            b2 = b1 + ''.join(f' {{{p.lower()}C : Codec {p}}} [Adv {p.lower()}C] [Fits {p.lower()}C]' for p in params)
            c = q + '.codec' + ''.join(' ' + p.lower() + 'C' for p in params)
            c = f'({c})' if params else c
            out.append(f'instance{b2} : Fits {c} :=\n  struct_fits ({pad + " (" if pad else ""}iso_fits (fun _ => rfl) inferInstance){")" if pad else ""}')
        m = re.match(r'abbrev (\w+) := (.*)', l)
        if m:
            out.append(f'instance : Fits {ns}{m.group(1)}.codec := by unfold {ns}{m.group(1)}.codec; infer_instance')
        m = re.match(r'inductive (\w+) where', l)
        if m:
            n = m.group(1); q = ns + n
            vs = []
            i += 1
            while not ls[i].startswith('  deriving'):
                vs.append(re.match(r'  \| (\w+)', ls[i]).group(1)); i += 1
            out.append(f'instance : Extent {q} where\n  extent\n' + '\n'.join(f'    | .{v} v => extent v' for v in vs))
            kind = None
            for x in ls[i:]:
                if x.startswith(f'def {n}.tagged'): kind = 'FitsT'; d = 'tagged'; break
                if x.startswith(f'def {n}.format'): kind = 'FitsF'; d = 'format'; break
            args = 'tag b p v q h' if kind == 'FitsT' else 'major minor b p v q h'
            t = [f'instance : {kind} {q}.{d} where', '  fits := by', f'    intro {args}', f'    unfold {q}.{d} at h']
            for v in vs:
                t += ['    refine ite_ok h (fun h => mapRead_fits h (fun _ => rfl) inferInstance) fun h => ?_']
            t += ['    cases h']
            out.append('\n'.join(t))
        i += 1
p = D + 'Extent.lean'
s = open(p).read()
mark = '/-! ## The types of the formats -/\n'
s = s[:s.index(mark) + len(mark)] + '\n' + '\n'.join(out) + '\n\nend Verif\n'
open(p, 'w').write(s)
