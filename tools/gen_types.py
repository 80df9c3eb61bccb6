#!/usr/bin/env python3
"""Writes lean/Verif/Data/TypeSentences.lean: for every crystal class the sentences that separate its space-group types.
Input: tools/sentences.json (found by search); tools/bits.json: their truth values (printed by Lean with #eval; the kernel checks them)."""
import json, re, glob, sys, os
root = os.path.join(os.path.dirname(os.path.abspath(__file__)), '..')
refs = {}
for f in sorted(glob.glob(root + '/lean/Verif/Rows/Chunk*.lean')):
    for m in re.finditer(r'^  ⟨(\d+), "((?:[^"\\]|\\.)*)", "((?:[^"\\]|\\.)*)"', open(f).read(), re.M):
        if m[3] != 'I 2ac 2bc':
            refs.setdefault(int(m[1]), set()).add(m[2])
assert sorted(refs) == list(range(1, 231)) and all(len(v) == 1 for v in refs.values())
refs = {k: v.pop() for k, v in refs.items()}
K = {'E': '.E', '2': '.N2', '3': '.N3', '4': '.N4', '6': '.N6', 'I': '.I', 'M': '.M', '-3': '.M3', '-4': '.M4', '-6': '.M6'}
B = {True: 'true', False: 'false'}
def word(w): return '[' + ', '.join(B[x == 1] for x in w) + ']'
def clause(c):
    kind, m, lits = c
    if kind == 'L':
        return '.lift %d [%s]' % (m, ', '.join('(%s, %s, %s)' % (B[p], word(w), word(v)) for p, w, v in lits))
    return '.trans %d [%s]' % (m, ', '.join('(%s, [%s])' % (B[p], ', '.join('(%d, %s)' % (c, word(w)) for c, w in l)) for p, l in lits))
def sentence(s):
    ks, pk, cl = s
    k1 = ks[0]; k2 = ks[1] if len(ks) > 1 else 'E'; k3 = pk if len(ks) > 1 else k1
    return '⟨%s, %s, %s, [%s]⟩' % (K[k1], K[k2], K[k3], ', '.join('(%s, %s)' % (B[b], clause(c)) for b, c in cl))
data = json.load(open(os.path.dirname(os.path.abspath(__file__)) + '/sentences.json'))
bits = json.load(open(os.path.dirname(os.path.abspath(__file__)) + '/bits.json'))
out = ['import Verif.Proofs.TypeInvariant', '', '/-! Generated by tools/gen_types.py; checked by the kernel. -/', '', 'namespace Verif', '',
'/-- A crystal class: statements, and the space-group types with their truth values. -/',
'structure ClassData where', '  sentences : List Sentence', '  members : List (Nat × String × List Bool)', '',
'/-- The truth values are right. -/', 'def ClassData.check (c : ClassData) : Bool :=', '  c.sentences.all Sentence.modsB && c.members.all fun m => memberCheck c.sentences m.2.1 m.2.2', '',
'theorem and_ok {a b : Bool} (ha : a = true) (hb : b = true) : (a && b) = true := by rw [ha, hb]; rfl', '',
'theorem all_ok {α : Type} {p : α → Bool} {a : α} {l : List α} (ha : p a = true) (hl : l.all p = true) : (a :: l).all p = true := by', '  rw [List.all_cons, ha, hl]; rfl', '']
for i, (nums, ss) in enumerate(data):
    mem = ['(%d, "%s", [%s])' % (n, refs[n], ', '.join(B[b] for b in bits.get(str(n), []))) for n in nums]
    out += ['/-- Statements that separate the types of the class of number %d. -/' % nums[0], 'def sents%d : List Sentence := [' % nums[0],
            '  ' + ',\n  '.join(sentence(s) for s in ss) + ']', '',
            '/-- The class of number %d. -/' % nums[0], 'def class%d : ClassData := ⟨sents%d, [' % (nums[0], nums[0]), '  ' + ',\n  '.join(mem) + ']⟩', '']
SL = [(0, 7), (7, 10), (10, 14), (14, 20), (20, 29), (29, 31), (31, 32)]
for k, (a, b) in enumerate(SL):
    o = ['import Verif.Data.TypeSentences', '', '/-! Generated by tools/gen_types.py; checked by the kernel. -/', '', 'namespace Verif', '',
         'set_option maxRecDepth 100000', '']
    for nums, ss in data[a:b]:
        for n in nums:
            o += ['theorem type%d_ok : memberCheck sents%d "%s" [%s] = true := by decide +kernel' % (n, nums[0], refs[n], ', '.join(B[x] for x in bits[str(n)])), '']
        o += ['theorem class%d_ok : class%d.check = true :=' % (nums[0], nums[0]),
              '  and_ok (by decide +kernel) (' + ' ('.join('all_ok type%d_ok' % n for n in nums) + ' rfl' + ')' * len(nums), '']
    o += ['end Verif', '']
    open(root + '/lean/Verif/Rows/Types%d.lean' % (k + 1), 'w').write('\n'.join(o))
cl = ['class%d' % nums[0] for nums, ss in data]
out += ['/-- All crystal classes. -/', 'def classData : List ClassData := [', '  ' + ', '.join(cl) + ']', '', 'end Verif', '']
open(root + '/lean/Verif/Data/TypeSentences.lean', 'w').write('\n'.join(out))
