#!/usr/bin/env python3
"""Writes lean/Verif/Formats/Move.lean: the instances of `Move` for the types in lean/Verif/Formats/*.lean."""
import re, os
D = os.path.join(os.path.dirname(os.path.abspath(__file__)), '../lean/Verif/Formats/')
MODS = ['Vectors', 'Nlst', 'Shdr', 'Modl', 'Skel', 'Hlpb', 'Nufx', 'Anim', 'Mesh', 'Matl', 'Nrpd']
out = ['''import Verif.Lib.Move
import Verif.Formats.Ssbh
/-!
# The ten formats in the middle of a stream

Written by tools/gen_move.py.
-/

namespace Verif

/-- A format which can be moved by multiples of 16. -/
class MoveF (f : Format α) : Prop where
  align : ∀ v, f.alignAfter v ∣ 16
  write : ∀ v k L w w1, 16 ∣ k → Moved k L w w1 → MovedW k L (f.write v w) (f.write v w1)
  read : ∀ major minor pre b p,
    MovedR pre.length (f.read major minor b p) (f.read major minor (pre ++ b) (p + pre.length))
''']
for mod in MODS:
    ls = open(D + mod + '.lean').read().split('\n')
    ns = ''
    i = 0
    while i < len(ls):
        l = ls[i]
        if l.startswith('namespace ') and l != 'namespace Verif': ns = l.split()[1] + '.'
        if l.startswith('end ') and l != 'end Verif': ns = ''
        m = re.match(r'structure (\w+)(.*) where', l)
        if m:
            n, ps = m.groups()
            params = re.findall(r'\((\w+) : Type\)', ps)
            q = ns + n
            b = ''.join(f' {{{p} : Type}} {{{p.lower()}C : Codec {p}}} [Move {p.lower()}C]' for p in params)
            c = q + '.codec' + ''.join(' ' + p.lower() + 'C' for p in params)
            c = f'({c})' if params else c
            out.append(f'instance{b} : Move {c} := by unfold {q}.codec; infer_instance')
        m = re.match(r'abbrev (\w+) := (.*)', l)
        if m:
            out.append(f'instance : Move {ns}{m.group(1)}.codec := by unfold {ns}{m.group(1)}.codec; infer_instance')
        m = re.match(r'inductive (\w+) where', l)
        if m:
            n = m.group(1); q = ns + n
            vs = []
            i += 1
            while not ls[i].startswith('  deriving'):
                vs.append(re.match(r'  \| (\w+)', ls[i]).group(1)); i += 1
            kind = None
            for j, x in enumerate(ls[i:]):
                if x.startswith(f'def {n}.tagged'): kind = 'MoveT'; d = 'tagged'; break
                if x.startswith(f'def {n}.format'): kind = 'MoveF'; d = 'format'; break
            codecs = {}
            seen = False
            for x in ls[i + j:]:
                if x.startswith('  write '): seen = True
                if x.startswith('  read '): break
                m = re.match(r'    \| \.(\w+) v => (.*)\.write v w', x)
                if seen and m: codecs[m.group(1)] = m.group(2)
            t = [f'instance : {kind} {q}.{d} where']
            t += ['  align := by decide'] if kind == 'MoveT' else ['  align v := by cases v <;> simp only [%s.format] <;> decide' % q]
            t += ['  write v k L w w1 hk h := by', '    cases v with']
            for v in vs:
                t += [f'    | {v} v => exact Move.write (c := {codecs[v]}) v k L w w1 hk h']
            args = 'tag pre b p' if kind == 'MoveT' else 'major minor pre b p'
            t += [f'  read {args} := by', f'    simp only [{q}.{d}]']
            for v in vs:
                t += [f'    refine ite_move (mapRead_move (Move.read (c := {codecs[v]}) pre b p)) ?_']
            t += ['    exact .error']
            out.append('\n'.join(t))
        i += 1
out.append('\nend Verif\n')
open(D + 'Move.lean', 'w').write('\n'.join(out))
