import Verif.Proofs.ArithClass

/-!
# The arithmetic classes a notation can have

Generated by tools/gen_classification.py, gen_classification2.py and gen_classification3.py.
-/

namespace Verif.Arith

/-- Class 0. -/
def k00 : Cls where
  gens := ⟨⟨1, 0, 0, 0, 1, 0, 0, 0, 1⟩, ⟨1, 0, 0, 0, 1, 0, 0, 0, 1⟩, ⟨1, 0, 0, 0, 1, 0, 0, 0, 1⟩⟩
  words := [[]]
  rels := [([0], []), ([1], []), ([2], [])]
  terms := [⟨1, ⟨⟨1, 0, 0⟩, ⟨0, 0, 0⟩, ⟨0, 0, 0⟩⟩, [⟨1, 0, 0⟩, ⟨0, 0, 0⟩, ⟨0, 0, 0⟩]⟩,
    ⟨1, ⟨⟨0, 1, 0⟩, ⟨0, 0, 0⟩, ⟨0, 0, 0⟩⟩, [⟨0, 1, 0⟩, ⟨0, 0, 0⟩, ⟨0, 0, 0⟩]⟩,
    ⟨1, ⟨⟨0, 0, 1⟩, ⟨0, 0, 0⟩, ⟨0, 0, 0⟩⟩, [⟨0, 0, 1⟩, ⟨0, 0, 0⟩, ⟨0, 0, 0⟩]⟩,
    ⟨1, ⟨⟨0, 0, 0⟩, ⟨1, 0, 0⟩, ⟨0, 0, 0⟩⟩, [⟨0, 0, 0⟩, ⟨1, 0, 0⟩, ⟨0, 0, 0⟩]⟩,
    ⟨1, ⟨⟨0, 0, 0⟩, ⟨0, 1, 0⟩, ⟨0, 0, 0⟩⟩, [⟨0, 0, 0⟩, ⟨0, 1, 0⟩, ⟨0, 0, 0⟩]⟩,
    ⟨1, ⟨⟨0, 0, 0⟩, ⟨0, 0, 1⟩, ⟨0, 0, 0⟩⟩, [⟨0, 0, 0⟩, ⟨0, 0, 1⟩, ⟨0, 0, 0⟩]⟩,
    ⟨1, ⟨⟨0, 0, 0⟩, ⟨0, 0, 0⟩, ⟨1, 0, 0⟩⟩, [⟨0, 0, 0⟩, ⟨0, 0, 0⟩, ⟨1, 0, 0⟩]⟩,
    ⟨1, ⟨⟨0, 0, 0⟩, ⟨0, 0, 0⟩, ⟨0, 1, 0⟩⟩, [⟨0, 0, 0⟩, ⟨0, 0, 0⟩, ⟨0, 1, 0⟩]⟩,
    ⟨1, ⟨⟨0, 0, 0⟩, ⟨0, 0, 0⟩, ⟨0, 0, 1⟩⟩, [⟨0, 0, 0⟩, ⟨0, 0, 0⟩, ⟨0, 0, 1⟩]⟩]
  s := ⟨⟨0, 0, 0, 0, 0, 0, 0, 0, 0⟩, ⟨0, 0, 0, 0, 0, 0, 0, 0, 0⟩, ⟨0, 0, 0, 0, 0, 0, 0, 0, 0⟩⟩
  n := 1
  m := 1
  reps := [⟨⟨0, 0, 0⟩, ⟨0, 0, 0⟩, ⟨0, 0, 0⟩⟩]
  certs := [
    ⟨0, ⟨1, 0, 0, 0, 1, 0, 0, 0, 1⟩, ⟨0, 0, 0⟩, ⟨[], [], []⟩⟩]

/-- Class 1. -/
def k01 : Cls where
  gens := ⟨⟨1, 0, 0, 0, 1, 0, 0, 0, -1⟩, ⟨1, 0, 0, 0, 1, 0, 0, 0, 1⟩, ⟨1, 0, 0, 0, 1, 0, 0, 0, 1⟩⟩
  words := [[], [0]]
  rels := [([1], []), ([2], []), ([0, 0], [])]
  terms := [⟨1, ⟨⟨0, 0, 0⟩, ⟨1, 0, 0⟩, ⟨0, 0, 0⟩⟩, [⟨1, 0, 0⟩, ⟨0, 0, 0⟩, ⟨0, 0, 0⟩]⟩,
    ⟨1, ⟨⟨0, 0, 0⟩, ⟨0, 1, 0⟩, ⟨0, 0, 0⟩⟩, [⟨0, 1, 0⟩, ⟨0, 0, 0⟩, ⟨0, 0, 0⟩]⟩,
    ⟨1, ⟨⟨0, 0, 0⟩, ⟨0, 0, 1⟩, ⟨0, 0, 0⟩⟩, [⟨0, 0, 1⟩, ⟨0, 0, 0⟩, ⟨0, 0, 0⟩]⟩,
    ⟨1, ⟨⟨0, 0, 0⟩, ⟨0, 0, 0⟩, ⟨1, 0, 0⟩⟩, [⟨0, 0, 0⟩, ⟨1, 0, 0⟩, ⟨0, 0, 0⟩]⟩,
    ⟨1, ⟨⟨0, 0, 0⟩, ⟨0, 0, 0⟩, ⟨0, 1, 0⟩⟩, [⟨0, 0, 0⟩, ⟨0, 1, 0⟩, ⟨0, 0, 0⟩]⟩,
    ⟨1, ⟨⟨0, 0, 0⟩, ⟨0, 0, 0⟩, ⟨0, 0, 1⟩⟩, [⟨0, 0, 0⟩, ⟨0, 0, 1⟩, ⟨0, 0, 0⟩]⟩,
    ⟨2, ⟨⟨1, 0, 0⟩, ⟨0, 0, 0⟩, ⟨0, 0, 0⟩⟩, [⟨0, 0, 0⟩, ⟨0, 0, 0⟩, ⟨1, 0, 0⟩]⟩,
    ⟨2, ⟨⟨0, 1, 0⟩, ⟨0, 0, 0⟩, ⟨0, 0, 0⟩⟩, [⟨0, 0, 0⟩, ⟨0, 0, 0⟩, ⟨0, 1, 0⟩]⟩]
  s := ⟨⟨0, 0, 0, 0, 0, 0, 0, 0, 1⟩, ⟨0, 0, 0, 0, 0, 0, 0, 0, 0⟩, ⟨0, 0, 0, 0, 0, 0, 0, 0, 0⟩⟩
  n := 2
  m := 2
  reps := [⟨⟨0, 0, 0⟩, ⟨0, 0, 0⟩, ⟨0, 0, 0⟩⟩, ⟨⟨0, 1, 0⟩, ⟨0, 0, 0⟩, ⟨0, 0, 0⟩⟩]
  certs := [
    ⟨0, ⟨1, 0, 0, 0, 1, 0, 0, 0, 1⟩, ⟨0, 0, 0⟩, ⟨[0], [], []⟩⟩,
    ⟨1, ⟨1, 0, 0, 0, 1, 0, 0, 0, 1⟩, ⟨0, 0, 0⟩, ⟨[0], [], []⟩⟩,
    ⟨1, ⟨0, -1, 0, -1, 0, 0, 0, 0, -1⟩, ⟨0, 0, 0⟩, ⟨[0], [], []⟩⟩,
    ⟨1, ⟨1, -1, 0, 0, 1, 0, 0, 0, 1⟩, ⟨0, 0, 0⟩, ⟨[0], [], []⟩⟩]

/-- Class 2. -/
def k02 : Cls where
  gens := ⟨⟨1, 0, 0, 0, 0, 1, 0, 1, 0⟩, ⟨1, 0, 0, 0, 1, 0, 0, 0, 1⟩, ⟨1, 0, 0, 0, 1, 0, 0, 0, 1⟩⟩
  words := [[], [0]]
  rels := [([1], []), ([2], []), ([0, 0], [])]
  terms := [⟨1, ⟨⟨0, 0, 0⟩, ⟨1, 0, 0⟩, ⟨0, 0, 0⟩⟩, [⟨1, 0, 0⟩, ⟨0, 0, 0⟩, ⟨0, 0, 0⟩]⟩,
    ⟨1, ⟨⟨0, 0, 0⟩, ⟨0, 1, 0⟩, ⟨0, 0, 0⟩⟩, [⟨0, 1, 0⟩, ⟨0, 0, 0⟩, ⟨0, 0, 0⟩]⟩,
    ⟨1, ⟨⟨0, 0, 0⟩, ⟨0, 0, 1⟩, ⟨0, 0, 0⟩⟩, [⟨0, 0, 1⟩, ⟨0, 0, 0⟩, ⟨0, 0, 0⟩]⟩,
    ⟨1, ⟨⟨0, 0, 0⟩, ⟨0, 0, 0⟩, ⟨1, 0, 0⟩⟩, [⟨0, 0, 0⟩, ⟨1, 0, 0⟩, ⟨0, 0, 0⟩]⟩,
    ⟨1, ⟨⟨0, 0, 0⟩, ⟨0, 0, 0⟩, ⟨0, 1, 0⟩⟩, [⟨0, 0, 0⟩, ⟨0, 1, 0⟩, ⟨0, 0, 0⟩]⟩,
    ⟨1, ⟨⟨0, 0, 0⟩, ⟨0, 0, 0⟩, ⟨0, 0, 1⟩⟩, [⟨0, 0, 0⟩, ⟨0, 0, 1⟩, ⟨0, 0, 0⟩]⟩,
    ⟨1, ⟨⟨0, 1, 0⟩, ⟨0, 0, 0⟩, ⟨0, 0, 0⟩⟩, [⟨0, 0, 0⟩, ⟨0, 0, 0⟩, ⟨0, 1, 0⟩]⟩,
    ⟨2, ⟨⟨1, 0, 0⟩, ⟨0, 0, 0⟩, ⟨0, 0, 0⟩⟩, [⟨0, 0, 0⟩, ⟨0, 0, 0⟩, ⟨1, 0, 0⟩]⟩]
  s := ⟨⟨0, 0, 0, 0, 0, -2, 0, 0, 0⟩, ⟨0, 0, 0, 0, 0, 0, 0, 0, 0⟩, ⟨0, 0, 0, 0, 0, 0, 0, 0, 0⟩⟩
  n := 2
  m := 2
  reps := [⟨⟨0, 0, 0⟩, ⟨0, 0, 0⟩, ⟨0, 0, 0⟩⟩, ⟨⟨1, 0, 0⟩, ⟨0, 0, 0⟩, ⟨0, 0, 0⟩⟩]
  certs := [
    ⟨0, ⟨1, 0, 0, 0, 1, 0, 0, 0, 1⟩, ⟨0, 0, 0⟩, ⟨[0], [], []⟩⟩,
    ⟨1, ⟨1, 0, 0, 0, 1, 0, 0, 0, 1⟩, ⟨0, 0, 0⟩, ⟨[0], [], []⟩⟩]

/-- Class 3. -/
def k03 : Cls where
  gens := ⟨⟨1, 0, 0, 0, -1, 0, 0, 0, -1⟩, ⟨1, 0, 0, 0, 1, 0, 0, 0, 1⟩, ⟨1, 0, 0, 0, 1, 0, 0, 0, 1⟩⟩
  words := [[], [0]]
  rels := [([1], []), ([2], []), ([0, 0], [])]
  terms := [⟨1, ⟨⟨0, 0, 0⟩, ⟨1, 0, 0⟩, ⟨0, 0, 0⟩⟩, [⟨1, 0, 0⟩, ⟨0, 0, 0⟩, ⟨0, 0, 0⟩]⟩,
    ⟨1, ⟨⟨0, 0, 0⟩, ⟨0, 1, 0⟩, ⟨0, 0, 0⟩⟩, [⟨0, 1, 0⟩, ⟨0, 0, 0⟩, ⟨0, 0, 0⟩]⟩,
    ⟨1, ⟨⟨0, 0, 0⟩, ⟨0, 0, 1⟩, ⟨0, 0, 0⟩⟩, [⟨0, 0, 1⟩, ⟨0, 0, 0⟩, ⟨0, 0, 0⟩]⟩,
    ⟨1, ⟨⟨0, 0, 0⟩, ⟨0, 0, 0⟩, ⟨1, 0, 0⟩⟩, [⟨0, 0, 0⟩, ⟨1, 0, 0⟩, ⟨0, 0, 0⟩]⟩,
    ⟨1, ⟨⟨0, 0, 0⟩, ⟨0, 0, 0⟩, ⟨0, 1, 0⟩⟩, [⟨0, 0, 0⟩, ⟨0, 1, 0⟩, ⟨0, 0, 0⟩]⟩,
    ⟨1, ⟨⟨0, 0, 0⟩, ⟨0, 0, 0⟩, ⟨0, 0, 1⟩⟩, [⟨0, 0, 0⟩, ⟨0, 0, 1⟩, ⟨0, 0, 0⟩]⟩,
    ⟨2, ⟨⟨1, 0, 0⟩, ⟨0, 0, 0⟩, ⟨0, 0, 0⟩⟩, [⟨0, 0, 0⟩, ⟨0, 0, 0⟩, ⟨1, 0, 0⟩]⟩]
  s := ⟨⟨0, 0, 0, 0, 1, 0, 0, 0, 1⟩, ⟨0, 0, 0, 0, 0, 0, 0, 0, 0⟩, ⟨0, 0, 0, 0, 0, 0, 0, 0, 0⟩⟩
  n := 2
  m := 2
  reps := [⟨⟨0, 0, 0⟩, ⟨0, 0, 0⟩, ⟨0, 0, 0⟩⟩, ⟨⟨1, 0, 0⟩, ⟨0, 0, 0⟩, ⟨0, 0, 0⟩⟩]
  certs := [
    ⟨0, ⟨1, 0, 0, 0, 1, 0, 0, 0, 1⟩, ⟨0, 0, 0⟩, ⟨[0], [], []⟩⟩,
    ⟨1, ⟨1, 0, 0, 0, 1, 0, 0, 0, 1⟩, ⟨0, 0, 0⟩, ⟨[0], [], []⟩⟩]

/-- Class 4. -/
def k04 : Cls where
  gens := ⟨⟨0, 0, 1, 0, -1, 0, 1, 0, 0⟩, ⟨1, 0, 0, 0, 1, 0, 0, 0, 1⟩, ⟨1, 0, 0, 0, 1, 0, 0, 0, 1⟩⟩
  words := [[], [0]]
  rels := [([1], []), ([2], []), ([0, 0], [])]
  terms := [⟨1, ⟨⟨0, 0, 0⟩, ⟨1, 0, 0⟩, ⟨0, 0, 0⟩⟩, [⟨1, 0, 0⟩, ⟨0, 0, 0⟩, ⟨0, 0, 0⟩]⟩,
    ⟨1, ⟨⟨0, 0, 0⟩, ⟨0, 1, 0⟩, ⟨0, 0, 0⟩⟩, [⟨0, 1, 0⟩, ⟨0, 0, 0⟩, ⟨0, 0, 0⟩]⟩,
    ⟨1, ⟨⟨0, 0, 0⟩, ⟨0, 0, 1⟩, ⟨0, 0, 0⟩⟩, [⟨0, 0, 1⟩, ⟨0, 0, 0⟩, ⟨0, 0, 0⟩]⟩,
    ⟨1, ⟨⟨0, 0, 0⟩, ⟨0, 0, 0⟩, ⟨1, 0, 0⟩⟩, [⟨0, 0, 0⟩, ⟨1, 0, 0⟩, ⟨0, 0, 0⟩]⟩,
    ⟨1, ⟨⟨0, 0, 0⟩, ⟨0, 0, 0⟩, ⟨0, 1, 0⟩⟩, [⟨0, 0, 0⟩, ⟨0, 1, 0⟩, ⟨0, 0, 0⟩]⟩,
    ⟨1, ⟨⟨0, 0, 0⟩, ⟨0, 0, 0⟩, ⟨0, 0, 1⟩⟩, [⟨0, 0, 0⟩, ⟨0, 0, 1⟩, ⟨0, 0, 0⟩]⟩,
    ⟨1, ⟨⟨1, 0, 0⟩, ⟨0, 0, 0⟩, ⟨0, 0, 0⟩⟩, [⟨0, 0, 0⟩, ⟨0, 0, 0⟩, ⟨1, 0, 0⟩]⟩]
  s := ⟨⟨0, 0, -2, 0, 1, 0, 0, 0, 0⟩, ⟨0, 0, 0, 0, 0, 0, 0, 0, 0⟩, ⟨0, 0, 0, 0, 0, 0, 0, 0, 0⟩⟩
  n := 2
  m := 2
  reps := [⟨⟨0, 0, 0⟩, ⟨0, 0, 0⟩, ⟨0, 0, 0⟩⟩]
  certs := [
    ⟨0, ⟨1, 0, 0, 0, 1, 0, 0, 0, 1⟩, ⟨0, 0, 0⟩, ⟨[0], [], []⟩⟩]

/-- Class 5. -/
def k05 : Cls where
  gens := ⟨⟨-1, 0, 0, 0, -1, 0, 0, 0, -1⟩, ⟨1, 0, 0, 0, 1, 0, 0, 0, 1⟩, ⟨1, 0, 0, 0, 1, 0, 0, 0, 1⟩⟩
  words := [[], [0]]
  rels := [([1], []), ([2], [])]
  terms := [⟨1, ⟨⟨0, 0, 0⟩, ⟨1, 0, 0⟩, ⟨0, 0, 0⟩⟩, [⟨1, 0, 0⟩, ⟨0, 0, 0⟩]⟩,
    ⟨1, ⟨⟨0, 0, 0⟩, ⟨0, 1, 0⟩, ⟨0, 0, 0⟩⟩, [⟨0, 1, 0⟩, ⟨0, 0, 0⟩]⟩,
    ⟨1, ⟨⟨0, 0, 0⟩, ⟨0, 0, 1⟩, ⟨0, 0, 0⟩⟩, [⟨0, 0, 1⟩, ⟨0, 0, 0⟩]⟩,
    ⟨1, ⟨⟨0, 0, 0⟩, ⟨0, 0, 0⟩, ⟨1, 0, 0⟩⟩, [⟨0, 0, 0⟩, ⟨1, 0, 0⟩]⟩,
    ⟨1, ⟨⟨0, 0, 0⟩, ⟨0, 0, 0⟩, ⟨0, 1, 0⟩⟩, [⟨0, 0, 0⟩, ⟨0, 1, 0⟩]⟩,
    ⟨1, ⟨⟨0, 0, 0⟩, ⟨0, 0, 0⟩, ⟨0, 0, 1⟩⟩, [⟨0, 0, 0⟩, ⟨0, 0, 1⟩]⟩]
  s := ⟨⟨1, 0, 0, 0, 1, 0, 0, 0, 1⟩, ⟨0, 0, 0, 0, 0, 0, 0, 0, 0⟩, ⟨0, 0, 0, 0, 0, 0, 0, 0, 0⟩⟩
  n := 2
  m := 2
  reps := [⟨⟨0, 0, 0⟩, ⟨0, 0, 0⟩, ⟨0, 0, 0⟩⟩]
  certs := [
    ⟨0, ⟨1, 0, 0, 0, 1, 0, 0, 0, 1⟩, ⟨0, 0, 0⟩, ⟨[0], [], []⟩⟩]

/-- Class 6. -/
def k06 : Cls where
  gens := ⟨⟨0, 0, 1, 1, 0, 0, 0, 1, 0⟩, ⟨1, 0, 0, 0, 1, 0, 0, 0, 1⟩, ⟨1, 0, 0, 0, 1, 0, 0, 0, 1⟩⟩
  words := [[], [0], [0, 0]]
  rels := [([1], []), ([2], []), ([0, 0, 0], [])]
  terms := [⟨1, ⟨⟨0, 0, 0⟩, ⟨1, 0, 0⟩, ⟨0, 0, 0⟩⟩, [⟨1, 0, 0⟩, ⟨0, 0, 0⟩, ⟨0, 0, 0⟩]⟩,
    ⟨1, ⟨⟨0, 0, 0⟩, ⟨0, 1, 0⟩, ⟨0, 0, 0⟩⟩, [⟨0, 1, 0⟩, ⟨0, 0, 0⟩, ⟨0, 0, 0⟩]⟩,
    ⟨1, ⟨⟨0, 0, 0⟩, ⟨0, 0, 1⟩, ⟨0, 0, 0⟩⟩, [⟨0, 0, 1⟩, ⟨0, 0, 0⟩, ⟨0, 0, 0⟩]⟩,
    ⟨1, ⟨⟨0, 0, 0⟩, ⟨0, 0, 0⟩, ⟨1, 0, 0⟩⟩, [⟨0, 0, 0⟩, ⟨1, 0, 0⟩, ⟨0, 0, 0⟩]⟩,
    ⟨1, ⟨⟨0, 0, 0⟩, ⟨0, 0, 0⟩, ⟨0, 1, 0⟩⟩, [⟨0, 0, 0⟩, ⟨0, 1, 0⟩, ⟨0, 0, 0⟩]⟩,
    ⟨1, ⟨⟨0, 0, 0⟩, ⟨0, 0, 0⟩, ⟨0, 0, 1⟩⟩, [⟨0, 0, 0⟩, ⟨0, 0, 1⟩, ⟨0, 0, 0⟩]⟩,
    ⟨1, ⟨⟨1, 0, 0⟩, ⟨0, 0, 0⟩, ⟨0, 0, 0⟩⟩, [⟨0, 0, 0⟩, ⟨0, 0, 0⟩, ⟨1, 0, 0⟩]⟩]
  s := ⟨⟨0, -1, -1, 0, 0, -1, 0, 0, 0⟩, ⟨0, 0, 0, 0, 0, 0, 0, 0, 0⟩, ⟨0, 0, 0, 0, 0, 0, 0, 0, 0⟩⟩
  n := 1
  m := 1
  reps := [⟨⟨0, 0, 0⟩, ⟨0, 0, 0⟩, ⟨0, 0, 0⟩⟩]
  certs := [
    ⟨0, ⟨1, 0, 0, 0, 1, 0, 0, 0, 1⟩, ⟨0, 0, 0⟩, ⟨[0], [], []⟩⟩]

/-- Class 7. -/
def k07 : Cls where
  gens := ⟨⟨-1, 0, 1, 0, 1, 0, -1, 0, 0⟩, ⟨1, 0, 0, 0, 1, 0, 0, 0, 1⟩, ⟨1, 0, 0, 0, 1, 0, 0, 0, 1⟩⟩
  words := [[], [0], [0, 0]]
  rels := [([1], []), ([2], []), ([0, 0, 0], [])]
  terms := [⟨1, ⟨⟨0, 0, 0⟩, ⟨1, 0, 0⟩, ⟨0, 0, 0⟩⟩, [⟨1, 0, 0⟩, ⟨0, 0, 0⟩, ⟨0, 0, 0⟩]⟩,
    ⟨1, ⟨⟨0, 0, 0⟩, ⟨0, 1, 0⟩, ⟨0, 0, 0⟩⟩, [⟨0, 1, 0⟩, ⟨0, 0, 0⟩, ⟨0, 0, 0⟩]⟩,
    ⟨1, ⟨⟨0, 0, 0⟩, ⟨0, 0, 1⟩, ⟨0, 0, 0⟩⟩, [⟨0, 0, 1⟩, ⟨0, 0, 0⟩, ⟨0, 0, 0⟩]⟩,
    ⟨1, ⟨⟨0, 0, 0⟩, ⟨0, 0, 0⟩, ⟨1, 0, 0⟩⟩, [⟨0, 0, 0⟩, ⟨1, 0, 0⟩, ⟨0, 0, 0⟩]⟩,
    ⟨1, ⟨⟨0, 0, 0⟩, ⟨0, 0, 0⟩, ⟨0, 1, 0⟩⟩, [⟨0, 0, 0⟩, ⟨0, 1, 0⟩, ⟨0, 0, 0⟩]⟩,
    ⟨1, ⟨⟨0, 0, 0⟩, ⟨0, 0, 0⟩, ⟨0, 0, 1⟩⟩, [⟨0, 0, 0⟩, ⟨0, 0, 1⟩, ⟨0, 0, 0⟩]⟩,
    ⟨3, ⟨⟨0, 1, 0⟩, ⟨0, 0, 0⟩, ⟨0, 0, 0⟩⟩, [⟨0, 0, 0⟩, ⟨0, 0, 0⟩, ⟨0, 1, 0⟩]⟩]
  s := ⟨⟨1, 0, 1, 0, 0, 0, -1, 0, 2⟩, ⟨0, 0, 0, 0, 0, 0, 0, 0, 0⟩, ⟨0, 0, 0, 0, 0, 0, 0, 0, 0⟩⟩
  n := 3
  m := 3
  reps := [⟨⟨0, 0, 0⟩, ⟨0, 0, 0⟩, ⟨0, 0, 0⟩⟩, ⟨⟨0, 1, 0⟩, ⟨0, 0, 0⟩, ⟨0, 0, 0⟩⟩, ⟨⟨0, 2, 0⟩, ⟨0, 0, 0⟩, ⟨0, 0, 0⟩⟩]
  certs := [
    ⟨0, ⟨1, 0, 0, 0, 1, 0, 0, 0, 1⟩, ⟨0, 0, 0⟩, ⟨[0], [], []⟩⟩,
    ⟨1, ⟨1, 0, 0, 0, 1, 0, 0, 0, 1⟩, ⟨0, 0, 0⟩, ⟨[0], [], []⟩⟩,
    ⟨2, ⟨1, 0, 0, 0, 1, 0, 0, 0, 1⟩, ⟨0, 0, 0⟩, ⟨[0], [], []⟩⟩]

/-- Class 8. -/
def k08 : Cls where
  gens := ⟨⟨1, 0, 0, 0, -1, 0, 0, 0, -1⟩, ⟨1, 0, 0, 0, -1, 0, 0, 0, 1⟩, ⟨1, 0, 0, 0, 1, 0, 0, 0, 1⟩⟩
  words := [[], [0], [1], [0, 1]]
  rels := [([2], []), ([1, 1], []), ([0, 1, 0], [1])]
  terms := [⟨1, ⟨⟨0, 0, 0⟩, ⟨0, 0, 0⟩, ⟨1, 0, 0⟩⟩, [⟨1, 0, 0⟩, ⟨0, 0, 0⟩, ⟨0, 0, 0⟩]⟩,
    ⟨1, ⟨⟨0, 0, 0⟩, ⟨0, 0, 0⟩, ⟨0, 1, 0⟩⟩, [⟨0, 1, 0⟩, ⟨0, 0, 0⟩, ⟨0, 0, 0⟩]⟩,
    ⟨1, ⟨⟨0, 0, 0⟩, ⟨0, 0, 0⟩, ⟨0, 0, 1⟩⟩, [⟨0, 0, 1⟩, ⟨0, 0, 0⟩, ⟨0, 0, 0⟩]⟩,
    ⟨2, ⟨⟨0, 0, 0⟩, ⟨1, 0, 0⟩, ⟨0, 0, 0⟩⟩, [⟨0, 0, 0⟩, ⟨1, 0, 0⟩, ⟨0, 0, 0⟩]⟩,
    ⟨2, ⟨⟨0, 0, 0⟩, ⟨0, 0, 1⟩, ⟨0, 0, 0⟩⟩, [⟨0, 0, 0⟩, ⟨0, 0, 1⟩, ⟨0, 0, 0⟩]⟩,
    ⟨2, ⟨⟨1, 0, 0⟩, ⟨0, 0, 0⟩, ⟨0, 0, 0⟩⟩, [⟨0, 0, 0⟩, ⟨0, 0, 0⟩, ⟨1, 0, 0⟩]⟩,
    ⟨2, ⟨⟨0, 0, 0⟩, ⟨0, 1, 0⟩, ⟨0, 0, 0⟩⟩, [⟨0, 0, 0⟩, ⟨0, 0, 0⟩, ⟨0, -1, 0⟩]⟩]
  s := ⟨⟨0, 0, 0, 0, 1, 0, 0, 0, 1⟩, ⟨0, 0, 0, 0, 0, 0, 0, 0, 0⟩, ⟨0, 0, 0, 0, 0, 0, 0, 0, 0⟩⟩
  n := 2
  m := 2
  reps := [⟨⟨0, 0, 0⟩, ⟨0, 0, 0⟩, ⟨0, 0, 0⟩⟩, ⟨⟨0, 0, 0⟩, ⟨0, 1, 0⟩, ⟨0, 0, 0⟩⟩, ⟨⟨1, 0, 0⟩, ⟨0, 0, 0⟩, ⟨0, 0, 0⟩⟩, ⟨⟨1, 0, 0⟩, ⟨0, 1, 0⟩, ⟨0, 0, 0⟩⟩, ⟨⟨0, 0, 0⟩, ⟨0, 1, 1⟩, ⟨0, 0, 0⟩⟩, ⟨⟨1, 0, 0⟩, ⟨0, 0, 1⟩, ⟨0, 0, 0⟩⟩, ⟨⟨1, 0, 0⟩, ⟨0, 1, 1⟩, ⟨0, 0, 0⟩⟩, ⟨⟨0, 0, 0⟩, ⟨1, 0, 0⟩, ⟨0, 0, 0⟩⟩, ⟨⟨0, 0, 0⟩, ⟨1, 1, 0⟩, ⟨0, 0, 0⟩⟩, ⟨⟨0, 0, 0⟩, ⟨1, 1, 1⟩, ⟨0, 0, 0⟩⟩]
  certs := [
    ⟨0, ⟨1, 0, 0, 0, 1, 0, 0, 0, 1⟩, ⟨0, 0, 0⟩, ⟨[0], [1], []⟩⟩,
    ⟨1, ⟨1, 0, 0, 0, 1, 0, 0, 0, 1⟩, ⟨0, 0, 0⟩, ⟨[0], [1], []⟩⟩,
    ⟨2, ⟨1, 0, 0, 0, 1, 0, 0, 0, 1⟩, ⟨0, 0, 0⟩, ⟨[0], [1], []⟩⟩,
    ⟨3, ⟨1, 0, 0, 0, 1, 0, 0, 0, 1⟩, ⟨0, 0, 0⟩, ⟨[0], [1], []⟩⟩,
    ⟨1, ⟨-1, 0, 0, 0, 0, -1, 0, -1, 0⟩, ⟨0, 0, 0⟩, ⟨[0], [0, 1], []⟩⟩,
    ⟨4, ⟨1, 0, 0, 0, 1, 0, 0, 0, 1⟩, ⟨0, 0, 0⟩, ⟨[0], [1], []⟩⟩,
    ⟨5, ⟨1, 0, 0, 0, 1, 0, 0, 0, 1⟩, ⟨0, 0, 0⟩, ⟨[0], [1], []⟩⟩,
    ⟨6, ⟨1, 0, 0, 0, 1, 0, 0, 0, 1⟩, ⟨0, 0, 0⟩, ⟨[0], [1], []⟩⟩,
    ⟨7, ⟨1, 0, 0, 0, 1, 0, 0, 0, 1⟩, ⟨0, 0, 0⟩, ⟨[0], [1], []⟩⟩,
    ⟨8, ⟨1, 0, 0, 0, 1, 0, 0, 0, 1⟩, ⟨0, 0, 0⟩, ⟨[0], [1], []⟩⟩,
    ⟨2, ⟨-1, 0, 0, 0, 0, -1, 0, -1, 0⟩, ⟨0, 0, 0⟩, ⟨[0], [0, 1], []⟩⟩,
    ⟨5, ⟨-1, 0, 0, 0, 0, -1, 0, -1, 0⟩, ⟨0, 0, 0⟩, ⟨[0], [0, 1], []⟩⟩,
    ⟨8, ⟨-1, 0, 0, 0, 0, -1, 0, -1, 0⟩, ⟨0, 0, 0⟩, ⟨[0], [0, 1], []⟩⟩,
    ⟨9, ⟨1, 0, 0, 0, 1, 0, 0, 0, 1⟩, ⟨0, 0, 0⟩, ⟨[0], [1], []⟩⟩,
    ⟨3, ⟨-1, 0, 0, 0, 0, -1, 0, -1, 0⟩, ⟨0, 0, 0⟩, ⟨[0], [0, 1], []⟩⟩,
    ⟨6, ⟨-1, 0, 0, 0, 0, -1, 0, -1, 0⟩, ⟨0, 0, 0⟩, ⟨[0], [0, 1], []⟩⟩]

/-- Class 9. -/
def k09 : Cls where
  gens := ⟨⟨1, 0, 0, 0, -1, 0, 0, 0, -1⟩, ⟨1, 0, 0, 0, 0, -1, 0, -1, 0⟩, ⟨1, 0, 0, 0, 1, 0, 0, 0, 1⟩⟩
  words := [[], [0], [1], [0, 1]]
  rels := [([2], []), ([1, 1], []), ([0, 1, 0], [1])]
  terms := [⟨1, ⟨⟨0, 0, 0⟩, ⟨0, 0, 0⟩, ⟨1, 0, 0⟩⟩, [⟨1, 0, 0⟩, ⟨0, 0, 0⟩, ⟨0, 0, 0⟩]⟩,
    ⟨1, ⟨⟨0, 0, 0⟩, ⟨0, 0, 0⟩, ⟨0, 1, 0⟩⟩, [⟨0, 1, 0⟩, ⟨0, 0, 0⟩, ⟨0, 0, 0⟩]⟩,
    ⟨1, ⟨⟨0, 0, 0⟩, ⟨0, 0, 0⟩, ⟨0, 0, 1⟩⟩, [⟨0, 0, 1⟩, ⟨0, 0, 0⟩, ⟨0, 0, 0⟩]⟩,
    ⟨1, ⟨⟨0, 0, 0⟩, ⟨0, 1, 0⟩, ⟨0, 0, 0⟩⟩, [⟨0, 0, 0⟩, ⟨0, 1, 0⟩, ⟨0, 0, 0⟩]⟩,
    ⟨1, ⟨⟨0, 1, 0⟩, ⟨0, 0, 0⟩, ⟨0, 0, 0⟩⟩, [⟨0, 0, 0⟩, ⟨0, 2, 0⟩, ⟨0, 1, 0⟩]⟩,
    ⟨2, ⟨⟨1, 0, 0⟩, ⟨0, 0, 0⟩, ⟨0, 0, 0⟩⟩, [⟨0, 0, 0⟩, ⟨0, 0, 0⟩, ⟨1, 0, 0⟩]⟩,
    ⟨2, ⟨⟨0, 0, 0⟩, ⟨1, 0, 0⟩, ⟨0, 0, 0⟩⟩, [⟨0, 0, 0⟩, ⟨1, 0, 0⟩, ⟨0, 0, 0⟩]⟩]
  s := ⟨⟨0, 0, 0, 0, 0, -1, 0, 0, 1⟩, ⟨0, 0, 0, 0, 0, 2, 0, 0, 0⟩, ⟨0, 0, 0, 0, 0, 0, 0, 0, 0⟩⟩
  n := 2
  m := 2
  reps := [⟨⟨0, 0, 0⟩, ⟨0, 0, 0⟩, ⟨0, 0, 0⟩⟩, ⟨⟨0, 0, 0⟩, ⟨1, 0, 0⟩, ⟨0, 0, 0⟩⟩, ⟨⟨1, 0, 0⟩, ⟨0, 0, 0⟩, ⟨0, 0, 0⟩⟩]
  certs := [
    ⟨0, ⟨1, 0, 0, 0, 1, 0, 0, 0, 1⟩, ⟨0, 0, 0⟩, ⟨[0], [1], []⟩⟩,
    ⟨1, ⟨1, 0, 0, 0, 1, 0, 0, 0, 1⟩, ⟨0, 0, 0⟩, ⟨[0], [1], []⟩⟩,
    ⟨2, ⟨1, 0, 0, 0, 1, 0, 0, 0, 1⟩, ⟨0, 0, 0⟩, ⟨[0], [1], []⟩⟩,
    ⟨2, ⟨1, 0, 0, 0, 0, -1, 0, 1, 0⟩, ⟨0, 0, 0⟩, ⟨[0], [0, 1], []⟩⟩]

/-- Class 10. -/
def k10 : Cls where
  gens := ⟨⟨0, 0, 1, 0, -1, 0, 1, 0, 0⟩, ⟨0, 0, 1, 0, 1, 0, 1, 0, 0⟩, ⟨1, 0, 0, 0, 1, 0, 0, 0, 1⟩⟩
  words := [[], [0], [1], [0, 1]]
  rels := [([2], []), ([0, 0], []), ([1, 1], []), ([0, 1, 0], [1])]
  terms := [⟨1, ⟨⟨0, 0, 0⟩, ⟨0, 0, 0⟩, ⟨1, 0, 0⟩⟩, [⟨1, 0, 0⟩, ⟨0, 0, 0⟩, ⟨0, 0, 0⟩, ⟨0, 0, 0⟩]⟩,
    ⟨1, ⟨⟨0, 0, 0⟩, ⟨0, 0, 0⟩, ⟨0, 1, 0⟩⟩, [⟨0, 1, 0⟩, ⟨0, 0, 0⟩, ⟨0, 0, 0⟩, ⟨0, 0, 0⟩]⟩,
    ⟨1, ⟨⟨0, 0, 0⟩, ⟨0, 0, 0⟩, ⟨0, 0, 1⟩⟩, [⟨0, 0, 1⟩, ⟨0, 0, 0⟩, ⟨0, 0, 0⟩, ⟨0, 0, 0⟩]⟩,
    ⟨1, ⟨⟨1, 0, 0⟩, ⟨0, 0, 0⟩, ⟨0, 0, 0⟩⟩, [⟨0, 0, 0⟩, ⟨1, 0, 0⟩, ⟨0, 0, 0⟩, ⟨0, 0, 0⟩]⟩,
    ⟨1, ⟨⟨0, 0, 0⟩, ⟨0, 0, 1⟩, ⟨0, 0, 0⟩⟩, [⟨0, 0, 0⟩, ⟨0, 0, 0⟩, ⟨1, 0, 0⟩, ⟨0, 0, 0⟩]⟩,
    ⟨2, ⟨⟨0, 0, 0⟩, ⟨0, 1, 0⟩, ⟨0, 0, 0⟩⟩, [⟨0, 0, 0⟩, ⟨0, 0, 0⟩, ⟨0, 1, 0⟩, ⟨0, 0, 0⟩]⟩,
    ⟨2, ⟨⟨0, 0, 0⟩, ⟨1, 0, -1⟩, ⟨0, 0, 0⟩⟩, [⟨0, 0, 0⟩, ⟨2, 0, 0⟩, ⟨1, 0, 0⟩, ⟨-1, 0, 0⟩]⟩]
  s := ⟨⟨0, 0, -2, 0, 1, 0, 0, 0, 0⟩, ⟨0, 0, 0, 0, 0, 0, 0, 0, 0⟩, ⟨0, 0, 0, 0, 0, 0, 0, 0, 0⟩⟩
  n := 2
  m := 2
  reps := [⟨⟨0, 0, 0⟩, ⟨0, 0, 0⟩, ⟨0, 0, 0⟩⟩, ⟨⟨0, 0, 0⟩, ⟨1, 0, -1⟩, ⟨0, 0, 0⟩⟩, ⟨⟨0, 0, 0⟩, ⟨0, 1, 0⟩, ⟨0, 0, 0⟩⟩, ⟨⟨0, 0, 0⟩, ⟨1, 1, -1⟩, ⟨0, 0, 0⟩⟩]
  certs := [
    ⟨0, ⟨1, 0, 0, 0, 1, 0, 0, 0, 1⟩, ⟨0, 0, 0⟩, ⟨[0], [1], []⟩⟩,
    ⟨1, ⟨1, 0, 0, 0, 1, 0, 0, 0, 1⟩, ⟨0, 0, 0⟩, ⟨[0], [1], []⟩⟩,
    ⟨2, ⟨1, 0, 0, 0, 1, 0, 0, 0, 1⟩, ⟨0, 0, 0⟩, ⟨[0], [1], []⟩⟩,
    ⟨3, ⟨1, 0, 0, 0, 1, 0, 0, 0, 1⟩, ⟨0, 0, 0⟩, ⟨[0], [1], []⟩⟩]

/-- Class 11. -/
def k11 : Cls where
  gens := ⟨⟨-1, 0, 0, -1, 0, 1, -1, 1, 0⟩, ⟨0, -1, 1, -1, 0, 1, 0, 0, 1⟩, ⟨1, 0, 0, 0, 1, 0, 0, 0, 1⟩⟩
  words := [[], [0], [1], [0, 1]]
  rels := [([2], []), ([1, 1], []), ([0, 1, 0], [1])]
  terms := [⟨1, ⟨⟨0, 0, 0⟩, ⟨0, 0, 0⟩, ⟨1, 0, 0⟩⟩, [⟨1, 0, 0⟩, ⟨0, 0, 0⟩, ⟨0, 0, 0⟩]⟩,
    ⟨1, ⟨⟨0, 0, 0⟩, ⟨0, 0, 0⟩, ⟨0, 1, 0⟩⟩, [⟨0, 1, 0⟩, ⟨0, 0, 0⟩, ⟨0, 0, 0⟩]⟩,
    ⟨1, ⟨⟨0, 0, 0⟩, ⟨0, 0, 0⟩, ⟨0, 0, 1⟩⟩, [⟨0, 0, 1⟩, ⟨0, 0, 0⟩, ⟨0, 0, 0⟩]⟩,
    ⟨1, ⟨⟨0, 0, 0⟩, ⟨1, 0, 0⟩, ⟨0, 0, 0⟩⟩, [⟨0, 0, 0⟩, ⟨1, 0, 0⟩, ⟨0, 0, 0⟩]⟩,
    ⟨1, ⟨⟨1, 0, 0⟩, ⟨0, 0, 0⟩, ⟨0, 0, 0⟩⟩, [⟨0, 0, 0⟩, ⟨2, 0, 0⟩, ⟨1, 0, 0⟩]⟩,
    ⟨2, ⟨⟨-2, 0, 0⟩, ⟨-1, 0, 1⟩, ⟨0, 0, 0⟩⟩, [⟨0, 0, 0⟩, ⟨0, 0, 1⟩, ⟨0, 0, 0⟩]⟩,
    ⟨2, ⟨⟨2, 0, 0⟩, ⟨1, 1, 0⟩, ⟨0, 0, 0⟩⟩, [⟨0, 0, 0⟩, ⟨-1, 0, 1⟩, ⟨0, -1, 0⟩]⟩]
  s := ⟨⟨0, 1, 1, 0, 1, -1, 0, 0, 0⟩, ⟨0, 0, 0, 0, 0, 0, 0, 0, 0⟩, ⟨0, 0, 0, 0, 0, 0, 0, 0, 0⟩⟩
  n := 2
  m := 2
  reps := [⟨⟨0, 0, 0⟩, ⟨0, 0, 0⟩, ⟨0, 0, 0⟩⟩, ⟨⟨2, 0, 0⟩, ⟨1, 1, 0⟩, ⟨0, 0, 0⟩⟩, ⟨⟨0, 0, 0⟩, ⟨0, 1, 1⟩, ⟨0, 0, 0⟩⟩]
  certs := [
    ⟨0, ⟨1, 0, 0, 0, 1, 0, 0, 0, 1⟩, ⟨0, 0, 0⟩, ⟨[0], [1], []⟩⟩,
    ⟨1, ⟨1, 0, 0, 0, 1, 0, 0, 0, 1⟩, ⟨0, 0, 0⟩, ⟨[0], [1], []⟩⟩,
    ⟨1, ⟨0, -1, 1, 0, 0, 1, -1, 0, 1⟩, ⟨1, 0, 1⟩, ⟨[0], [0, 1], []⟩⟩,
    ⟨2, ⟨1, 0, 0, 0, 1, 0, 0, 0, 1⟩, ⟨0, 0, 0⟩, ⟨[0], [1], []⟩⟩]

/-- Class 12. -/
def k12 : Cls where
  gens := ⟨⟨-1, -1, -1, 0, 0, 1, 0, 1, 0⟩, ⟨0, -1, 0, -1, 0, 0, 1, 1, 1⟩, ⟨1, 0, 0, 0, 1, 0, 0, 0, 1⟩⟩
  words := [[], [0], [1], [0, 1]]
  rels := [([2], []), ([0, 0], []), ([1, 1], []), ([0, 1, 0], [1])]
  terms := [⟨1, ⟨⟨0, 0, 0⟩, ⟨0, 0, 0⟩, ⟨1, 0, 0⟩⟩, [⟨1, 0, 0⟩, ⟨0, 0, 0⟩, ⟨0, 0, 0⟩, ⟨0, 0, 0⟩]⟩,
    ⟨1, ⟨⟨0, 0, 0⟩, ⟨0, 0, 0⟩, ⟨0, 1, 0⟩⟩, [⟨0, 1, 0⟩, ⟨0, 0, 0⟩, ⟨0, 0, 0⟩, ⟨0, 0, 0⟩]⟩,
    ⟨1, ⟨⟨0, 0, 0⟩, ⟨0, 0, 0⟩, ⟨0, 0, 1⟩⟩, [⟨0, 0, 1⟩, ⟨0, 0, 0⟩, ⟨0, 0, 0⟩, ⟨0, 0, 0⟩]⟩,
    ⟨1, ⟨⟨0, 1, 0⟩, ⟨0, 0, 0⟩, ⟨0, 0, 0⟩⟩, [⟨0, 0, 0⟩, ⟨-1, 0, 0⟩, ⟨0, 0, 0⟩, ⟨0, 0, 0⟩]⟩,
    ⟨1, ⟨⟨0, 0, 0⟩, ⟨0, 1, 0⟩, ⟨0, 0, 0⟩⟩, [⟨0, 0, 0⟩, ⟨0, 0, 0⟩, ⟨-1, 0, 0⟩, ⟨0, 0, 0⟩]⟩,
    ⟨1, ⟨⟨0, 0, 0⟩, ⟨0, 0, 1⟩, ⟨0, 0, 0⟩⟩, [⟨0, 0, 0⟩, ⟨0, 0, 0⟩, ⟨1, 0, 0⟩, ⟨-1, 0, 0⟩]⟩,
    ⟨2, ⟨⟨1, 0, 0⟩, ⟨0, 0, 1⟩, ⟨0, 0, 0⟩⟩, [⟨0, 0, 0⟩, ⟨0, 0, 0⟩, ⟨-1, 0, 1⟩, ⟨2, 0, 0⟩]⟩]
  s := ⟨⟨0, 0, 2, 0, 0, -2, 0, 0, 0⟩, ⟨2, 0, 0, 0, 0, 0, 0, 0, 0⟩, ⟨0, 0, 0, 0, 0, 0, 0, 0, 0⟩⟩
  n := 2
  m := 2
  reps := [⟨⟨0, 0, 0⟩, ⟨0, 0, 0⟩, ⟨0, 0, 0⟩⟩, ⟨⟨1, 0, 0⟩, ⟨0, 0, 1⟩, ⟨0, 0, 0⟩⟩]
  certs := [
    ⟨0, ⟨1, 0, 0, 0, 1, 0, 0, 0, 1⟩, ⟨0, 0, 0⟩, ⟨[0], [1], []⟩⟩,
    ⟨1, ⟨1, 0, 0, 0, 1, 0, 0, 0, 1⟩, ⟨0, 0, 0⟩, ⟨[0], [1], []⟩⟩]

/-- Class 13. -/
def k13 : Cls where
  gens := ⟨⟨-1, 0, 0, 0, -1, 0, 0, 0, 1⟩, ⟨-1, 0, 0, 0, 1, 0, 0, 0, -1⟩, ⟨1, 0, 0, 0, 1, 0, 0, 0, 1⟩⟩
  words := [[], [0], [1], [0, 1]]
  rels := [([2], []), ([0, 0], []), ([0, 1, 0], [1])]
  terms := [⟨1, ⟨⟨0, 0, 0⟩, ⟨0, 0, 0⟩, ⟨1, 0, 0⟩⟩, [⟨1, 0, 0⟩, ⟨0, 0, 0⟩, ⟨0, 0, 0⟩]⟩,
    ⟨1, ⟨⟨0, 0, 0⟩, ⟨0, 0, 0⟩, ⟨0, 1, 0⟩⟩, [⟨0, 1, 0⟩, ⟨0, 0, 0⟩, ⟨0, 0, 0⟩]⟩,
    ⟨1, ⟨⟨0, 0, 0⟩, ⟨0, 0, 0⟩, ⟨0, 0, 1⟩⟩, [⟨0, 0, 1⟩, ⟨0, 0, 0⟩, ⟨0, 0, 0⟩]⟩,
    ⟨2, ⟨⟨0, 0, 1⟩, ⟨0, 0, 0⟩, ⟨0, 0, 0⟩⟩, [⟨0, 0, 0⟩, ⟨0, 0, 1⟩, ⟨0, 0, 0⟩]⟩,
    ⟨2, ⟨⟨1, 0, 0⟩, ⟨0, 0, 0⟩, ⟨0, 0, 0⟩⟩, [⟨0, 0, 0⟩, ⟨0, 0, 0⟩, ⟨1, 0, 0⟩]⟩,
    ⟨2, ⟨⟨0, 0, 0⟩, ⟨0, 1, 0⟩, ⟨0, 0, 0⟩⟩, [⟨0, 0, 0⟩, ⟨0, 0, 0⟩, ⟨0, -1, 0⟩]⟩]
  s := ⟨⟨0, 0, 0, 0, 1, 0, 0, 0, 0⟩, ⟨1, 0, 0, 0, 0, 0, 0, 0, 1⟩, ⟨0, 0, 0, 0, 0, 0, 0, 0, 0⟩⟩
  n := 2
  m := 4
  reps := [⟨⟨0, 0, 0⟩, ⟨0, 0, 0⟩, ⟨0, 0, 0⟩⟩, ⟨⟨0, 0, 0⟩, ⟨0, 2, 0⟩, ⟨0, 0, 0⟩⟩, ⟨⟨2, 0, 0⟩, ⟨0, 2, 0⟩, ⟨0, 0, 0⟩⟩, ⟨⟨2, 0, 2⟩, ⟨0, 2, 0⟩, ⟨0, 0, 0⟩⟩]
  certs := [
    ⟨0, ⟨1, 0, 0, 0, 1, 0, 0, 0, 1⟩, ⟨0, 0, 0⟩, ⟨[0], [1], []⟩⟩,
    ⟨1, ⟨1, 0, 0, 0, 1, 0, 0, 0, 1⟩, ⟨0, 0, 0⟩, ⟨[0], [1], []⟩⟩,
    ⟨1, ⟨0, -1, 0, -1, 0, 0, 0, 0, -1⟩, ⟨0, -1, 0⟩, ⟨[0], [0, 1], []⟩⟩,
    ⟨2, ⟨1, 0, 0, 0, 1, 0, 0, 0, 1⟩, ⟨0, 0, 0⟩, ⟨[0], [1], []⟩⟩,
    ⟨1, ⟨-1, 0, 0, 0, 0, -1, 0, -1, 0⟩, ⟨0, 0, 0⟩, ⟨[1], [0], []⟩⟩,
    ⟨2, ⟨0, 1, 0, 0, 0, 1, 1, 0, 0⟩, ⟨0, -1, 0⟩, ⟨[0, 1], [0], []⟩⟩,
    ⟨2, ⟨-1, 0, 0, 0, 0, -1, 0, -1, 0⟩, ⟨1, 0, 0⟩, ⟨[1], [0], []⟩⟩,
    ⟨3, ⟨1, 0, 0, 0, 1, 0, 0, 0, 1⟩, ⟨0, 0, 0⟩, ⟨[0], [1], []⟩⟩]

/-- Class 14. -/
def k14 : Cls where
  gens := ⟨⟨-1, 0, 0, 0, 0, -1, 0, -1, 0⟩, ⟨-1, 0, 0, 0, 0, 1, 0, 1, 0⟩, ⟨1, 0, 0, 0, 1, 0, 0, 0, 1⟩⟩
  words := [[], [0], [1], [0, 1]]
  rels := [([2], []), ([0, 0], []), ([0, 1, 0], [1])]
  terms := [⟨1, ⟨⟨0, 0, 0⟩, ⟨0, 0, 0⟩, ⟨1, 0, 0⟩⟩, [⟨1, 0, 0⟩, ⟨0, 0, 0⟩, ⟨0, 0, 0⟩]⟩,
    ⟨1, ⟨⟨0, 0, 0⟩, ⟨0, 0, 0⟩, ⟨0, 1, 0⟩⟩, [⟨0, 1, 0⟩, ⟨0, 0, 0⟩, ⟨0, 0, 0⟩]⟩,
    ⟨1, ⟨⟨0, 0, 0⟩, ⟨0, 0, 0⟩, ⟨0, 0, 1⟩⟩, [⟨0, 0, 1⟩, ⟨0, 0, 0⟩, ⟨0, 0, 0⟩]⟩,
    ⟨1, ⟨⟨0, 1, 0⟩, ⟨0, 0, 0⟩, ⟨0, 0, 0⟩⟩, [⟨0, 0, 0⟩, ⟨0, 1, 0⟩, ⟨0, 0, 0⟩]⟩,
    ⟨1, ⟨⟨0, 0, 0⟩, ⟨0, 1, 0⟩, ⟨0, 0, 0⟩⟩, [⟨0, 0, 0⟩, ⟨0, 0, 0⟩, ⟨0, -1, 0⟩]⟩,
    ⟨2, ⟨⟨1, 0, 0⟩, ⟨0, 0, 0⟩, ⟨0, 0, 0⟩⟩, [⟨0, 0, 0⟩, ⟨0, 0, 0⟩, ⟨1, 0, 0⟩]⟩]
  s := ⟨⟨0, 0, 0, 0, 0, 1, 0, 0, 1⟩, ⟨1, 0, 0, 0, 0, -1, 0, 0, 1⟩, ⟨0, 0, 0, 0, 0, 0, 0, 0, 0⟩⟩
  n := 2
  m := 2
  reps := [⟨⟨0, 0, 0⟩, ⟨0, 0, 0⟩, ⟨0, 0, 0⟩⟩, ⟨⟨1, 0, 0⟩, ⟨0, 0, 0⟩, ⟨0, 0, 0⟩⟩]
  certs := [
    ⟨0, ⟨1, 0, 0, 0, 1, 0, 0, 0, 1⟩, ⟨0, 0, 0⟩, ⟨[0], [1], []⟩⟩,
    ⟨1, ⟨1, 0, 0, 0, 1, 0, 0, 0, 1⟩, ⟨0, 0, 0⟩, ⟨[0], [1], []⟩⟩]

/-- Class 15. -/
def k15 : Cls where
  gens := ⟨⟨-1, 0, 0, -1, 0, 1, -1, 1, 0⟩, ⟨0, -1, 1, 0, -1, 0, 1, -1, 0⟩, ⟨1, 0, 0, 0, 1, 0, 0, 0, 1⟩⟩
  words := [[], [0], [1], [0, 1]]
  rels := [([2], []), ([0, 0], []), ([0, 1, 0], [1])]
  terms := [⟨1, ⟨⟨0, 0, 0⟩, ⟨0, 0, 0⟩, ⟨1, 0, 0⟩⟩, [⟨1, 0, 0⟩, ⟨0, 0, 0⟩, ⟨0, 0, 0⟩]⟩,
    ⟨1, ⟨⟨0, 0, 0⟩, ⟨0, 0, 0⟩, ⟨0, 1, 0⟩⟩, [⟨0, 1, 0⟩, ⟨0, 0, 0⟩, ⟨0, 0, 0⟩]⟩,
    ⟨1, ⟨⟨0, 0, 0⟩, ⟨0, 0, 0⟩, ⟨0, 0, 1⟩⟩, [⟨0, 0, 1⟩, ⟨0, 0, 0⟩, ⟨0, 0, 0⟩]⟩,
    ⟨1, ⟨⟨1, 0, 0⟩, ⟨0, 0, 0⟩, ⟨0, 0, 0⟩⟩, [⟨0, 0, 0⟩, ⟨0, -1, 0⟩, ⟨0, 0, 0⟩]⟩,
    ⟨1, ⟨⟨0, 0, 0⟩, ⟨0, 1, 0⟩, ⟨0, 0, 0⟩⟩, [⟨0, 0, 0⟩, ⟨0, -1, 0⟩, ⟨0, -1, 0⟩]⟩,
    ⟨2, ⟨⟨0, 0, 0⟩, ⟨1, -1, 0⟩, ⟨0, 0, 0⟩⟩, [⟨0, 0, 0⟩, ⟨0, -1, 0⟩, ⟨-1, 0, 0⟩]⟩]
  s := ⟨⟨0, 1, 1, 0, 1, 0, 0, 0, 1⟩, ⟨0, 0, 0, 0, 0, 1, 0, 0, 1⟩, ⟨0, 0, 0, 0, 0, 0, 0, 0, 0⟩⟩
  n := 2
  m := 2
  reps := [⟨⟨0, 0, 0⟩, ⟨0, 0, 0⟩, ⟨0, 0, 0⟩⟩, ⟨⟨0, 0, 0⟩, ⟨1, -1, 0⟩, ⟨0, 0, 0⟩⟩]
  certs := [
    ⟨0, ⟨1, 0, 0, 0, 1, 0, 0, 0, 1⟩, ⟨0, 0, 0⟩, ⟨[0], [1], []⟩⟩,
    ⟨1, ⟨1, 0, 0, 0, 1, 0, 0, 0, 1⟩, ⟨0, 0, 0⟩, ⟨[0], [1], []⟩⟩]

/-- Class 16. -/
def k16 : Cls where
  gens := ⟨⟨-1, -1, -1, 0, 0, 1, 0, 1, 0⟩, ⟨0, 0, 1, -1, -1, -1, 1, 0, 0⟩, ⟨1, 0, 0, 0, 1, 0, 0, 0, 1⟩⟩
  words := [[], [0], [1], [0, 1]]
  rels := [([2], []), ([0, 0], []), ([1, 1], []), ([0, 1, 0], [1])]
  terms := [⟨1, ⟨⟨0, 0, 0⟩, ⟨0, 0, 0⟩, ⟨1, 0, 0⟩⟩, [⟨1, 0, 0⟩, ⟨0, 0, 0⟩, ⟨0, 0, 0⟩, ⟨0, 0, 0⟩]⟩,
    ⟨1, ⟨⟨0, 0, 0⟩, ⟨0, 0, 0⟩, ⟨0, 1, 0⟩⟩, [⟨0, 1, 0⟩, ⟨0, 0, 0⟩, ⟨0, 0, 0⟩, ⟨0, 0, 0⟩]⟩,
    ⟨1, ⟨⟨0, 0, 0⟩, ⟨0, 0, 0⟩, ⟨0, 0, 1⟩⟩, [⟨0, 0, 1⟩, ⟨0, 0, 0⟩, ⟨0, 0, 0⟩, ⟨0, 0, 0⟩]⟩,
    ⟨1, ⟨⟨0, 1, 0⟩, ⟨0, 0, 0⟩, ⟨0, 0, 0⟩⟩, [⟨0, 0, 0⟩, ⟨-1, 0, 0⟩, ⟨0, 0, 0⟩, ⟨0, 0, 0⟩]⟩,
    ⟨1, ⟨⟨0, 0, 0⟩, ⟨0, 0, 1⟩, ⟨0, 0, 0⟩⟩, [⟨0, 0, 0⟩, ⟨0, 0, 0⟩, ⟨1, 0, 0⟩, ⟨0, 0, 0⟩]⟩,
    ⟨1, ⟨⟨0, 0, 0⟩, ⟨0, 1, 0⟩, ⟨0, 0, 0⟩⟩, [⟨0, 0, 0⟩, ⟨-1, 0, 0⟩, ⟨-1, 0, 0⟩, ⟨-1, 0, 0⟩]⟩]
  s := ⟨⟨1, 0, 1, 1, 0, -3, 1, 0, 1⟩, ⟨2, 0, 0, -2, 0, 0, -2, 0, 0⟩, ⟨0, 0, 0, 0, 0, 0, 0, 0, 0⟩⟩
  n := 4
  m := 4
  reps := [⟨⟨0, 0, 0⟩, ⟨0, 0, 0⟩, ⟨0, 0, 0⟩⟩]
  certs := [
    ⟨0, ⟨1, 0, 0, 0, 1, 0, 0, 0, 1⟩, ⟨0, 0, 0⟩, ⟨[0], [1], []⟩⟩]

/-- Class 17. -/
def k17 : Cls where
  gens := ⟨⟨-1, 0, 0, 0, -1, 0, 0, 0, -1⟩, ⟨-1, 0, 0, 0, 1, 0, 0, 0, 1⟩, ⟨1, 0, 0, 0, 1, 0, 0, 0, 1⟩⟩
  words := [[], [0], [1], [0, 1]]
  rels := [([2], []), ([0, 1, 0], [1])]
  terms := [⟨1, ⟨⟨0, 0, 0⟩, ⟨0, 0, 0⟩, ⟨1, 0, 0⟩⟩, [⟨1, 0, 0⟩, ⟨0, 0, 0⟩]⟩,
    ⟨1, ⟨⟨0, 0, 0⟩, ⟨0, 0, 0⟩, ⟨0, 1, 0⟩⟩, [⟨0, 1, 0⟩, ⟨0, 0, 0⟩]⟩,
    ⟨1, ⟨⟨0, 0, 0⟩, ⟨0, 0, 0⟩, ⟨0, 0, 1⟩⟩, [⟨0, 0, 1⟩, ⟨0, 0, 0⟩]⟩,
    ⟨2, ⟨⟨0, 0, 0⟩, ⟨1, 0, 0⟩, ⟨0, 0, 0⟩⟩, [⟨0, 0, 0⟩, ⟨-1, 0, 0⟩]⟩,
    ⟨2, ⟨⟨0, 0, 0⟩, ⟨0, 1, 0⟩, ⟨0, 0, 0⟩⟩, [⟨0, 0, 0⟩, ⟨0, -1, 0⟩]⟩,
    ⟨2, ⟨⟨0, 0, 0⟩, ⟨0, 0, 1⟩, ⟨0, 0, 0⟩⟩, [⟨0, 0, 0⟩, ⟨0, 0, -1⟩]⟩]
  s := ⟨⟨1, 0, 0, 0, 1, 0, 0, 0, 1⟩, ⟨0, 0, 0, 0, 0, 0, 0, 0, 0⟩, ⟨0, 0, 0, 0, 0, 0, 0, 0, 0⟩⟩
  n := 2
  m := 2
  reps := [⟨⟨0, 0, 0⟩, ⟨0, 0, 0⟩, ⟨0, 0, 0⟩⟩, ⟨⟨0, 0, 0⟩, ⟨0, 0, 1⟩, ⟨0, 0, 0⟩⟩, ⟨⟨0, 0, 0⟩, ⟨1, 0, 0⟩, ⟨0, 0, 0⟩⟩, ⟨⟨0, 0, 0⟩, ⟨1, 0, 1⟩, ⟨0, 0, 0⟩⟩]
  certs := [
    ⟨0, ⟨1, 0, 0, 0, 1, 0, 0, 0, 1⟩, ⟨0, 0, 0⟩, ⟨[0], [1], []⟩⟩,
    ⟨1, ⟨1, 0, 0, 0, 1, 0, 0, 0, 1⟩, ⟨0, 0, 0⟩, ⟨[0], [1], []⟩⟩,
    ⟨1, ⟨-1, 0, 0, 0, 0, -1, 0, -1, 0⟩, ⟨0, 0, 0⟩, ⟨[0], [1], []⟩⟩,
    ⟨1, ⟨1, 0, 0, 0, 1, -1, 0, 0, 1⟩, ⟨0, 0, 0⟩, ⟨[0], [1], []⟩⟩,
    ⟨2, ⟨1, 0, 0, 0, 1, 0, 0, 0, 1⟩, ⟨0, 0, 0⟩, ⟨[0], [1], []⟩⟩,
    ⟨3, ⟨1, 0, 0, 0, 1, 0, 0, 0, 1⟩, ⟨0, 0, 0⟩, ⟨[0], [1], []⟩⟩,
    ⟨3, ⟨-1, 0, 0, 0, 0, -1, 0, -1, 0⟩, ⟨0, 0, 0⟩, ⟨[0], [1], []⟩⟩,
    ⟨3, ⟨1, 0, 0, 0, 1, -1, 0, 0, 1⟩, ⟨0, 0, 0⟩, ⟨[0], [1], []⟩⟩]

/-- Class 18. -/
def k18 : Cls where
  gens := ⟨⟨-1, 0, 0, 0, -1, 0, 0, 0, -1⟩, ⟨0, 0, -1, 0, 1, 0, -1, 0, 0⟩, ⟨1, 0, 0, 0, 1, 0, 0, 0, 1⟩⟩
  words := [[], [0], [1], [0, 1]]
  rels := [([2], []), ([1, 1], []), ([0, 1, 0], [1])]
  terms := [⟨1, ⟨⟨0, 0, 0⟩, ⟨0, 0, 0⟩, ⟨1, 0, 0⟩⟩, [⟨1, 0, 0⟩, ⟨0, 0, 0⟩, ⟨0, 0, 0⟩]⟩,
    ⟨1, ⟨⟨0, 0, 0⟩, ⟨0, 0, 0⟩, ⟨0, 1, 0⟩⟩, [⟨0, 1, 0⟩, ⟨0, 0, 0⟩, ⟨0, 0, 0⟩]⟩,
    ⟨1, ⟨⟨0, 0, 0⟩, ⟨0, 0, 0⟩, ⟨0, 0, 1⟩⟩, [⟨0, 0, 1⟩, ⟨0, 0, 0⟩, ⟨0, 0, 0⟩]⟩,
    ⟨1, ⟨⟨0, 0, 0⟩, ⟨1, 0, 0⟩, ⟨0, 0, 0⟩⟩, [⟨0, 0, 0⟩, ⟨1, 0, 0⟩, ⟨0, 0, 0⟩]⟩,
    ⟨1, ⟨⟨1, 0, 0⟩, ⟨0, 0, 0⟩, ⟨0, 0, 0⟩⟩, [⟨0, 0, 0⟩, ⟨2, 0, 0⟩, ⟨1, 0, 0⟩]⟩,
    ⟨2, ⟨⟨0, 0, 0⟩, ⟨0, 1, 0⟩, ⟨0, 0, 0⟩⟩, [⟨0, 0, 0⟩, ⟨0, 1, 0⟩, ⟨0, 0, 0⟩]⟩]
  s := ⟨⟨0, 0, -1, 0, 1, 0, 0, 0, 1⟩, ⟨0, 0, 2, 0, 0, 0, 0, 0, 0⟩, ⟨0, 0, 0, 0, 0, 0, 0, 0, 0⟩⟩
  n := 2
  m := 2
  reps := [⟨⟨0, 0, 0⟩, ⟨0, 0, 0⟩, ⟨0, 0, 0⟩⟩, ⟨⟨0, 0, 0⟩, ⟨0, 1, 0⟩, ⟨0, 0, 0⟩⟩]
  certs := [
    ⟨0, ⟨1, 0, 0, 0, 1, 0, 0, 0, 1⟩, ⟨0, 0, 0⟩, ⟨[0], [1], []⟩⟩,
    ⟨1, ⟨1, 0, 0, 0, 1, 0, 0, 0, 1⟩, ⟨0, 0, 0⟩, ⟨[0], [1], []⟩⟩]

/-- Class 19. -/
def k19 : Cls where
  gens := ⟨⟨1, 0, 0, 0, 0, -1, 0, 1, 0⟩, ⟨1, 0, 0, 0, 1, 0, 0, 0, 1⟩, ⟨1, 0, 0, 0, 1, 0, 0, 0, 1⟩⟩
  words := [[], [0], [0, 0], [0, 0, 0]]
  rels := [([1], []), ([2], []), ([0, 0, 0, 0], [])]
  terms := [⟨1, ⟨⟨0, 0, 0⟩, ⟨1, 0, 0⟩, ⟨0, 0, 0⟩⟩, [⟨1, 0, 0⟩, ⟨0, 0, 0⟩, ⟨0, 0, 0⟩]⟩,
    ⟨1, ⟨⟨0, 0, 0⟩, ⟨0, 1, 0⟩, ⟨0, 0, 0⟩⟩, [⟨0, 1, 0⟩, ⟨0, 0, 0⟩, ⟨0, 0, 0⟩]⟩,
    ⟨1, ⟨⟨0, 0, 0⟩, ⟨0, 0, 1⟩, ⟨0, 0, 0⟩⟩, [⟨0, 0, 1⟩, ⟨0, 0, 0⟩, ⟨0, 0, 0⟩]⟩,
    ⟨1, ⟨⟨0, 0, 0⟩, ⟨0, 0, 0⟩, ⟨1, 0, 0⟩⟩, [⟨0, 0, 0⟩, ⟨1, 0, 0⟩, ⟨0, 0, 0⟩]⟩,
    ⟨1, ⟨⟨0, 0, 0⟩, ⟨0, 0, 0⟩, ⟨0, 1, 0⟩⟩, [⟨0, 0, 0⟩, ⟨0, 1, 0⟩, ⟨0, 0, 0⟩]⟩,
    ⟨1, ⟨⟨0, 0, 0⟩, ⟨0, 0, 0⟩, ⟨0, 0, 1⟩⟩, [⟨0, 0, 0⟩, ⟨0, 0, 1⟩, ⟨0, 0, 0⟩]⟩,
    ⟨4, ⟨⟨1, 0, 0⟩, ⟨0, 0, 0⟩, ⟨0, 0, 0⟩⟩, [⟨0, 0, 0⟩, ⟨0, 0, 0⟩, ⟨1, 0, 0⟩]⟩]
  s := ⟨⟨0, 0, 0, 0, 2, -2, 0, 2, 2⟩, ⟨0, 0, 0, 0, 0, 0, 0, 0, 0⟩, ⟨0, 0, 0, 0, 0, 0, 0, 0, 0⟩⟩
  n := 4
  m := 4
  reps := [⟨⟨0, 0, 0⟩, ⟨0, 0, 0⟩, ⟨0, 0, 0⟩⟩, ⟨⟨1, 0, 0⟩, ⟨0, 0, 0⟩, ⟨0, 0, 0⟩⟩, ⟨⟨2, 0, 0⟩, ⟨0, 0, 0⟩, ⟨0, 0, 0⟩⟩, ⟨⟨3, 0, 0⟩, ⟨0, 0, 0⟩, ⟨0, 0, 0⟩⟩]
  certs := [
    ⟨0, ⟨1, 0, 0, 0, 1, 0, 0, 0, 1⟩, ⟨0, 0, 0⟩, ⟨[0], [], []⟩⟩,
    ⟨1, ⟨1, 0, 0, 0, 1, 0, 0, 0, 1⟩, ⟨0, 0, 0⟩, ⟨[0], [], []⟩⟩,
    ⟨2, ⟨1, 0, 0, 0, 1, 0, 0, 0, 1⟩, ⟨0, 0, 0⟩, ⟨[0], [], []⟩⟩,
    ⟨3, ⟨1, 0, 0, 0, 1, 0, 0, 0, 1⟩, ⟨0, 0, 0⟩, ⟨[0], [], []⟩⟩]

/-- Class 20. -/
def k20 : Cls where
  gens := ⟨⟨0, -1, 1, 0, 0, 1, -1, 0, 1⟩, ⟨1, 0, 0, 0, 1, 0, 0, 0, 1⟩, ⟨1, 0, 0, 0, 1, 0, 0, 0, 1⟩⟩
  words := [[], [0], [0, 0], [0, 0, 0]]
  rels := [([1], []), ([2], []), ([0, 0, 0, 0], [])]
  terms := [⟨1, ⟨⟨0, 0, 0⟩, ⟨1, 0, 0⟩, ⟨0, 0, 0⟩⟩, [⟨1, 0, 0⟩, ⟨0, 0, 0⟩, ⟨0, 0, 0⟩]⟩,
    ⟨1, ⟨⟨0, 0, 0⟩, ⟨0, 1, 0⟩, ⟨0, 0, 0⟩⟩, [⟨0, 1, 0⟩, ⟨0, 0, 0⟩, ⟨0, 0, 0⟩]⟩,
    ⟨1, ⟨⟨0, 0, 0⟩, ⟨0, 0, 1⟩, ⟨0, 0, 0⟩⟩, [⟨0, 0, 1⟩, ⟨0, 0, 0⟩, ⟨0, 0, 0⟩]⟩,
    ⟨1, ⟨⟨0, 0, 0⟩, ⟨0, 0, 0⟩, ⟨1, 0, 0⟩⟩, [⟨0, 0, 0⟩, ⟨1, 0, 0⟩, ⟨0, 0, 0⟩]⟩,
    ⟨1, ⟨⟨0, 0, 0⟩, ⟨0, 0, 0⟩, ⟨0, 1, 0⟩⟩, [⟨0, 0, 0⟩, ⟨0, 1, 0⟩, ⟨0, 0, 0⟩]⟩,
    ⟨1, ⟨⟨0, 0, 0⟩, ⟨0, 0, 0⟩, ⟨0, 0, 1⟩⟩, [⟨0, 0, 0⟩, ⟨0, 0, 1⟩, ⟨0, 0, 0⟩]⟩,
    ⟨2, ⟨⟨1, 0, 0⟩, ⟨0, 0, 0⟩, ⟨0, 0, 0⟩⟩, [⟨0, 0, 0⟩, ⟨0, 0, 0⟩, ⟨0, -1, 0⟩]⟩]
  s := ⟨⟨0, 0, 2, 0, 2, 0, 0, 0, 0⟩, ⟨0, 0, 0, 0, 0, 0, 0, 0, 0⟩, ⟨0, 0, 0, 0, 0, 0, 0, 0, 0⟩⟩
  n := 2
  m := 2
  reps := [⟨⟨0, 0, 0⟩, ⟨0, 0, 0⟩, ⟨0, 0, 0⟩⟩, ⟨⟨1, 0, 0⟩, ⟨0, 0, 0⟩, ⟨0, 0, 0⟩⟩]
  certs := [
    ⟨0, ⟨1, 0, 0, 0, 1, 0, 0, 0, 1⟩, ⟨0, 0, 0⟩, ⟨[0], [], []⟩⟩,
    ⟨1, ⟨1, 0, 0, 0, 1, 0, 0, 0, 1⟩, ⟨0, 0, 0⟩, ⟨[0], [], []⟩⟩]

/-- Class 21. -/
def k21 : Cls where
  gens := ⟨⟨-1, 0, 0, 0, 0, -1, 0, 1, 0⟩, ⟨1, 0, 0, 0, 1, 0, 0, 0, 1⟩, ⟨1, 0, 0, 0, 1, 0, 0, 0, 1⟩⟩
  words := [[], [0], [0, 0], [0, 0, 0]]
  rels := [([1], []), ([2], [])]
  terms := [⟨1, ⟨⟨0, 0, 0⟩, ⟨1, 0, 0⟩, ⟨0, 0, 0⟩⟩, [⟨1, 0, 0⟩, ⟨0, 0, 0⟩]⟩,
    ⟨1, ⟨⟨0, 0, 0⟩, ⟨0, 1, 0⟩, ⟨0, 0, 0⟩⟩, [⟨0, 1, 0⟩, ⟨0, 0, 0⟩]⟩,
    ⟨1, ⟨⟨0, 0, 0⟩, ⟨0, 0, 1⟩, ⟨0, 0, 0⟩⟩, [⟨0, 0, 1⟩, ⟨0, 0, 0⟩]⟩,
    ⟨1, ⟨⟨0, 0, 0⟩, ⟨0, 0, 0⟩, ⟨1, 0, 0⟩⟩, [⟨0, 0, 0⟩, ⟨1, 0, 0⟩]⟩,
    ⟨1, ⟨⟨0, 0, 0⟩, ⟨0, 0, 0⟩, ⟨0, 1, 0⟩⟩, [⟨0, 0, 0⟩, ⟨0, 1, 0⟩]⟩,
    ⟨1, ⟨⟨0, 0, 0⟩, ⟨0, 0, 0⟩, ⟨0, 0, 1⟩⟩, [⟨0, 0, 0⟩, ⟨0, 0, 1⟩]⟩]
  s := ⟨⟨1, 0, 0, 0, 1, -1, 0, 1, 1⟩, ⟨0, 0, 0, 0, 0, 0, 0, 0, 0⟩, ⟨0, 0, 0, 0, 0, 0, 0, 0, 0⟩⟩
  n := 2
  m := 2
  reps := [⟨⟨0, 0, 0⟩, ⟨0, 0, 0⟩, ⟨0, 0, 0⟩⟩]
  certs := [
    ⟨0, ⟨1, 0, 0, 0, 1, 0, 0, 0, 1⟩, ⟨0, 0, 0⟩, ⟨[0], [], []⟩⟩]

/-- Class 22. -/
def k22 : Cls where
  gens := ⟨⟨0, -1, 1, 1, -1, 0, 0, -1, 0⟩, ⟨1, 0, 0, 0, 1, 0, 0, 0, 1⟩, ⟨1, 0, 0, 0, 1, 0, 0, 0, 1⟩⟩
  words := [[], [0], [0, 0], [0, 0, 0]]
  rels := [([1], []), ([2], [])]
  terms := [⟨1, ⟨⟨0, 0, 0⟩, ⟨1, 0, 0⟩, ⟨0, 0, 0⟩⟩, [⟨1, 0, 0⟩, ⟨0, 0, 0⟩]⟩,
    ⟨1, ⟨⟨0, 0, 0⟩, ⟨0, 1, 0⟩, ⟨0, 0, 0⟩⟩, [⟨0, 1, 0⟩, ⟨0, 0, 0⟩]⟩,
    ⟨1, ⟨⟨0, 0, 0⟩, ⟨0, 0, 1⟩, ⟨0, 0, 0⟩⟩, [⟨0, 0, 1⟩, ⟨0, 0, 0⟩]⟩,
    ⟨1, ⟨⟨0, 0, 0⟩, ⟨0, 0, 0⟩, ⟨1, 0, 0⟩⟩, [⟨0, 0, 0⟩, ⟨1, 0, 0⟩]⟩,
    ⟨1, ⟨⟨0, 0, 0⟩, ⟨0, 0, 0⟩, ⟨0, 1, 0⟩⟩, [⟨0, 0, 0⟩, ⟨0, 1, 0⟩]⟩,
    ⟨1, ⟨⟨0, 0, 0⟩, ⟨0, 0, 0⟩, ⟨0, 0, 1⟩⟩, [⟨0, 0, 0⟩, ⟨0, 0, 1⟩]⟩]
  s := ⟨⟨2, -2, 2, 1, 1, 1, -1, -1, 3⟩, ⟨0, 0, 0, 0, 0, 0, 0, 0, 0⟩, ⟨0, 0, 0, 0, 0, 0, 0, 0, 0⟩⟩
  n := 4
  m := 4
  reps := [⟨⟨0, 0, 0⟩, ⟨0, 0, 0⟩, ⟨0, 0, 0⟩⟩]
  certs := [
    ⟨0, ⟨1, 0, 0, 0, 1, 0, 0, 0, 1⟩, ⟨0, 0, 0⟩, ⟨[0], [], []⟩⟩]

/-- Class 23. -/
def k23 : Cls where
  gens := ⟨⟨0, 0, -1, 1, 0, 0, 0, 1, 0⟩, ⟨1, 0, 0, 0, 1, 0, 0, 0, 1⟩, ⟨1, 0, 0, 0, 1, 0, 0, 0, 1⟩⟩
  words := [[], [0], [0, 0], [0, 0, 0], [0, 0, 0, 0], [0, 0, 0, 0, 0]]
  rels := [([1], []), ([2], [])]
  terms := [⟨1, ⟨⟨0, 0, 0⟩, ⟨1, 0, 0⟩, ⟨0, 0, 0⟩⟩, [⟨1, 0, 0⟩, ⟨0, 0, 0⟩]⟩,
    ⟨1, ⟨⟨0, 0, 0⟩, ⟨0, 1, 0⟩, ⟨0, 0, 0⟩⟩, [⟨0, 1, 0⟩, ⟨0, 0, 0⟩]⟩,
    ⟨1, ⟨⟨0, 0, 0⟩, ⟨0, 0, 1⟩, ⟨0, 0, 0⟩⟩, [⟨0, 0, 1⟩, ⟨0, 0, 0⟩]⟩,
    ⟨1, ⟨⟨0, 0, 0⟩, ⟨0, 0, 0⟩, ⟨1, 0, 0⟩⟩, [⟨0, 0, 0⟩, ⟨1, 0, 0⟩]⟩,
    ⟨1, ⟨⟨0, 0, 0⟩, ⟨0, 0, 0⟩, ⟨0, 1, 0⟩⟩, [⟨0, 0, 0⟩, ⟨0, 1, 0⟩]⟩,
    ⟨1, ⟨⟨0, 0, 0⟩, ⟨0, 0, 0⟩, ⟨0, 0, 1⟩⟩, [⟨0, 0, 0⟩, ⟨0, 0, 1⟩]⟩]
  s := ⟨⟨1, -1, -1, 1, 1, -1, 1, 1, 1⟩, ⟨0, 0, 0, 0, 0, 0, 0, 0, 0⟩, ⟨0, 0, 0, 0, 0, 0, 0, 0, 0⟩⟩
  n := 2
  m := 2
  reps := [⟨⟨0, 0, 0⟩, ⟨0, 0, 0⟩, ⟨0, 0, 0⟩⟩]
  certs := [
    ⟨0, ⟨1, 0, 0, 0, 1, 0, 0, 0, 1⟩, ⟨0, 0, 0⟩, ⟨[0], [], []⟩⟩]

/-- Class 24. -/
def k24 : Cls where
  gens := ⟨⟨0, 0, 1, 0, -1, 0, -1, 0, 1⟩, ⟨1, 0, 0, 0, 1, 0, 0, 0, 1⟩, ⟨1, 0, 0, 0, 1, 0, 0, 0, 1⟩⟩
  words := [[], [0], [0, 0], [0, 0, 0], [0, 0, 0, 0], [0, 0, 0, 0, 0]]
  rels := [([1], []), ([2], [])]
  terms := [⟨1, ⟨⟨0, 0, 0⟩, ⟨1, 0, 0⟩, ⟨0, 0, 0⟩⟩, [⟨1, 0, 0⟩, ⟨0, 0, 0⟩]⟩,
    ⟨1, ⟨⟨0, 0, 0⟩, ⟨0, 1, 0⟩, ⟨0, 0, 0⟩⟩, [⟨0, 1, 0⟩, ⟨0, 0, 0⟩]⟩,
    ⟨1, ⟨⟨0, 0, 0⟩, ⟨0, 0, 1⟩, ⟨0, 0, 0⟩⟩, [⟨0, 0, 1⟩, ⟨0, 0, 0⟩]⟩,
    ⟨1, ⟨⟨0, 0, 0⟩, ⟨0, 0, 0⟩, ⟨1, 0, 0⟩⟩, [⟨0, 0, 0⟩, ⟨1, 0, 0⟩]⟩,
    ⟨1, ⟨⟨0, 0, 0⟩, ⟨0, 0, 0⟩, ⟨0, 1, 0⟩⟩, [⟨0, 0, 0⟩, ⟨0, 1, 0⟩]⟩,
    ⟨1, ⟨⟨0, 0, 0⟩, ⟨0, 0, 0⟩, ⟨0, 0, 1⟩⟩, [⟨0, 0, 0⟩, ⟨0, 0, 1⟩]⟩]
  s := ⟨⟨0, 0, 2, 0, 1, 0, -2, 0, 2⟩, ⟨0, 0, 0, 0, 0, 0, 0, 0, 0⟩, ⟨0, 0, 0, 0, 0, 0, 0, 0, 0⟩⟩
  n := 2
  m := 2
  reps := [⟨⟨0, 0, 0⟩, ⟨0, 0, 0⟩, ⟨0, 0, 0⟩⟩]
  certs := [
    ⟨0, ⟨1, 0, 0, 0, 1, 0, 0, 0, 1⟩, ⟨0, 0, 0⟩, ⟨[0], [], []⟩⟩]

/-- Class 25. -/
def k25 : Cls where
  gens := ⟨⟨0, 0, 1, 1, 0, 0, 0, 1, 0⟩, ⟨0, 0, 1, 0, 1, 0, 1, 0, 0⟩, ⟨1, 0, 0, 0, 1, 0, 0, 0, 1⟩⟩
  words := [[], [0], [1], [0, 0], [0, 1], [1, 0]]
  rels := [([2], []), ([1, 1], []), ([0, 0, 0], []), ([0, 1, 0], [1])]
  terms := [⟨1, ⟨⟨0, 0, 0⟩, ⟨0, 0, 0⟩, ⟨1, 0, 0⟩⟩, [⟨1, 0, 0⟩, ⟨0, 0, 0⟩, ⟨0, 0, 0⟩, ⟨0, 0, 0⟩]⟩,
    ⟨1, ⟨⟨0, 0, 0⟩, ⟨0, 0, 0⟩, ⟨0, 1, 0⟩⟩, [⟨0, 1, 0⟩, ⟨0, 0, 0⟩, ⟨0, 0, 0⟩, ⟨0, 0, 0⟩]⟩,
    ⟨1, ⟨⟨0, 0, 0⟩, ⟨0, 0, 0⟩, ⟨0, 0, 1⟩⟩, [⟨0, 0, 1⟩, ⟨0, 0, 0⟩, ⟨0, 0, 0⟩, ⟨0, 0, 0⟩]⟩,
    ⟨1, ⟨⟨0, 0, 0⟩, ⟨1, 0, 0⟩, ⟨0, 0, 0⟩⟩, [⟨0, 0, 0⟩, ⟨1, 0, 0⟩, ⟨0, 0, 0⟩, ⟨0, 0, 0⟩]⟩,
    ⟨1, ⟨⟨1, 0, 0⟩, ⟨0, 0, 0⟩, ⟨0, 0, 0⟩⟩, [⟨0, 0, 0⟩, ⟨0, 0, 0⟩, ⟨1, 0, 0⟩, ⟨0, 0, 0⟩]⟩,
    ⟨1, ⟨⟨0, 0, 0⟩, ⟨-1, 0, 1⟩, ⟨0, 0, 0⟩⟩, [⟨0, 0, 0⟩, ⟨1, 0, 0⟩, ⟨0, 0, 0⟩, ⟨0, -1, 0⟩]⟩,
    ⟨2, ⟨⟨0, 0, 0⟩, ⟨1, 1, -1⟩, ⟨0, 0, 0⟩⟩, [⟨0, 0, 0⟩, ⟨0, 1, 0⟩, ⟨0, 0, 0⟩, ⟨0, 0, 0⟩]⟩]
  s := ⟨⟨0, -2, -2, 0, 0, -2, 0, 0, 0⟩, ⟨0, 0, 0, 0, 0, 0, 0, 0, 0⟩, ⟨0, 0, 0, 0, 0, 0, 0, 0, 0⟩⟩
  n := 2
  m := 2
  reps := [⟨⟨0, 0, 0⟩, ⟨0, 0, 0⟩, ⟨0, 0, 0⟩⟩, ⟨⟨0, 0, 0⟩, ⟨1, 1, -1⟩, ⟨0, 0, 0⟩⟩]
  certs := [
    ⟨0, ⟨1, 0, 0, 0, 1, 0, 0, 0, 1⟩, ⟨0, 0, 0⟩, ⟨[0], [1], []⟩⟩,
    ⟨1, ⟨1, 0, 0, 0, 1, 0, 0, 0, 1⟩, ⟨0, 0, 0⟩, ⟨[0], [1], []⟩⟩]

/-- Class 26. -/
def k26 : Cls where
  gens := ⟨⟨0, 0, -1, 1, 0, 0, 0, -1, 0⟩, ⟨-1, 0, 0, 0, 0, 1, 0, 1, 0⟩, ⟨1, 0, 0, 0, 1, 0, 0, 0, 1⟩⟩
  words := [[], [0], [1], [0, 0], [0, 1], [1, 0]]
  rels := [([2], []), ([0, 0, 0], []), ([0, 1, 0], [1])]
  terms := [⟨1, ⟨⟨0, 0, 0⟩, ⟨0, 0, 0⟩, ⟨1, 0, 0⟩⟩, [⟨1, 0, 0⟩, ⟨0, 0, 0⟩, ⟨0, 0, 0⟩]⟩,
    ⟨1, ⟨⟨0, 0, 0⟩, ⟨0, 0, 0⟩, ⟨0, 1, 0⟩⟩, [⟨0, 1, 0⟩, ⟨0, 0, 0⟩, ⟨0, 0, 0⟩]⟩,
    ⟨1, ⟨⟨0, 0, 0⟩, ⟨0, 0, 0⟩, ⟨0, 0, 1⟩⟩, [⟨0, 0, 1⟩, ⟨0, 0, 0⟩, ⟨0, 0, 0⟩]⟩,
    ⟨1, ⟨⟨1, 0, 0⟩, ⟨0, 0, 0⟩, ⟨0, 0, 0⟩⟩, [⟨0, 0, 0⟩, ⟨1, 0, 0⟩, ⟨0, 0, 0⟩]⟩,
    ⟨1, ⟨⟨0, 0, 0⟩, ⟨0, 0, 1⟩, ⟨0, 0, 0⟩⟩, [⟨0, 0, 0⟩, ⟨1, 0, 0⟩, ⟨-1, 0, 0⟩]⟩,
    ⟨1, ⟨⟨0, 0, 0⟩, ⟨0, 1, 0⟩, ⟨0, 0, 0⟩⟩, [⟨0, 0, 0⟩, ⟨-1, 0, 0⟩, ⟨0, -1, 0⟩]⟩]
  s := ⟨⟨0, 0, 0, 0, 2, 0, 0, -2, 2⟩, ⟨1, 0, 0, 1, 0, 0, -1, 0, 0⟩, ⟨0, 0, 0, 0, 0, 0, 0, 0, 0⟩⟩
  n := 2
  m := 2
  reps := [⟨⟨0, 0, 0⟩, ⟨0, 0, 0⟩, ⟨0, 0, 0⟩⟩]
  certs := [
    ⟨0, ⟨1, 0, 0, 0, 1, 0, 0, 0, 1⟩, ⟨0, 0, 0⟩, ⟨[0], [1], []⟩⟩]

/-- Class 27. -/
def k27 : Cls where
  gens := ⟨⟨-1, 0, 1, 0, 1, 0, -1, 0, 0⟩, ⟨0, 0, -1, 0, -1, 0, -1, 0, 0⟩, ⟨1, 0, 0, 0, 1, 0, 0, 0, 1⟩⟩
  words := [[], [0], [1], [0, 0], [0, 1], [1, 0]]
  rels := [([2], []), ([1, 1], []), ([0, 0, 0], []), ([0, 1, 0], [1])]
  terms := [⟨1, ⟨⟨0, 0, 0⟩, ⟨0, 0, 0⟩, ⟨1, 0, 0⟩⟩, [⟨1, 0, 0⟩, ⟨0, 0, 0⟩, ⟨0, 0, 0⟩, ⟨0, 0, 0⟩]⟩,
    ⟨1, ⟨⟨0, 0, 0⟩, ⟨0, 0, 0⟩, ⟨0, 1, 0⟩⟩, [⟨0, 1, 0⟩, ⟨0, 0, 0⟩, ⟨0, 0, 0⟩, ⟨0, 0, 0⟩]⟩,
    ⟨1, ⟨⟨0, 0, 0⟩, ⟨0, 0, 0⟩, ⟨0, 0, 1⟩⟩, [⟨0, 0, 1⟩, ⟨0, 0, 0⟩, ⟨0, 0, 0⟩, ⟨0, 0, 0⟩]⟩,
    ⟨1, ⟨⟨0, 0, 0⟩, ⟨1, 0, 0⟩, ⟨0, 0, 0⟩⟩, [⟨0, 0, 0⟩, ⟨1, 0, 0⟩, ⟨0, 0, 0⟩, ⟨0, 0, 0⟩]⟩,
    ⟨1, ⟨⟨0, 0, 0⟩, ⟨1, 0, 1⟩, ⟨0, 0, 0⟩⟩, [⟨0, 0, 0⟩, ⟨-2, 0, 0⟩, ⟨0, 0, 0⟩, ⟨-1, 0, 0⟩]⟩,
    ⟨3, ⟨⟨0, 1, 0⟩, ⟨0, 0, 0⟩, ⟨0, 0, 0⟩⟩, [⟨0, 0, 0⟩, ⟨0, 0, 0⟩, ⟨0, 1, 0⟩, ⟨0, 0, 0⟩]⟩]
  s := ⟨⟨2, 0, 2, 0, 0, 0, -2, 0, 4⟩, ⟨0, 0, 0, 0, 3, 0, 0, 0, 0⟩, ⟨0, 0, 0, 0, 0, 0, 0, 0, 0⟩⟩
  n := 6
  m := 6
  reps := [⟨⟨0, 0, 0⟩, ⟨0, 0, 0⟩, ⟨0, 0, 0⟩⟩, ⟨⟨0, 2, 0⟩, ⟨0, 0, 0⟩, ⟨0, 0, 0⟩⟩, ⟨⟨0, 4, 0⟩, ⟨0, 0, 0⟩, ⟨0, 0, 0⟩⟩]
  certs := [
    ⟨0, ⟨1, 0, 0, 0, 1, 0, 0, 0, 1⟩, ⟨0, 0, 0⟩, ⟨[0], [1], []⟩⟩,
    ⟨1, ⟨1, 0, 0, 0, 1, 0, 0, 0, 1⟩, ⟨0, 0, 0⟩, ⟨[0], [1], []⟩⟩,
    ⟨2, ⟨1, 0, 0, 0, 1, 0, 0, 0, 1⟩, ⟨0, 0, 0⟩, ⟨[0], [1], []⟩⟩]

/-- Class 28. -/
def k28 : Cls where
  gens := ⟨⟨-1, 0, 1, 0, 1, 0, -1, 0, 0⟩, ⟨0, 0, 1, 0, 1, 0, 1, 0, 0⟩, ⟨1, 0, 0, 0, 1, 0, 0, 0, 1⟩⟩
  words := [[], [0], [1], [0, 0], [0, 1], [1, 0]]
  rels := [([2], []), ([1, 1], []), ([0, 0, 0], []), ([0, 1, 0], [1])]
  terms := [⟨1, ⟨⟨0, 0, 0⟩, ⟨0, 0, 0⟩, ⟨1, 0, 0⟩⟩, [⟨1, 0, 0⟩, ⟨0, 0, 0⟩, ⟨0, 0, 0⟩, ⟨0, 0, 0⟩]⟩,
    ⟨1, ⟨⟨0, 0, 0⟩, ⟨0, 0, 0⟩, ⟨0, 1, 0⟩⟩, [⟨0, 1, 0⟩, ⟨0, 0, 0⟩, ⟨0, 0, 0⟩, ⟨0, 0, 0⟩]⟩,
    ⟨1, ⟨⟨0, 0, 0⟩, ⟨0, 0, 0⟩, ⟨0, 0, 1⟩⟩, [⟨0, 0, 1⟩, ⟨0, 0, 0⟩, ⟨0, 0, 0⟩, ⟨0, 0, 0⟩]⟩,
    ⟨1, ⟨⟨0, 0, 0⟩, ⟨1, 0, 0⟩, ⟨0, 0, 0⟩⟩, [⟨0, 0, 0⟩, ⟨1, 0, 0⟩, ⟨0, 0, 0⟩, ⟨0, 0, 0⟩]⟩,
    ⟨1, ⟨⟨0, 0, 1⟩, ⟨0, 0, 0⟩, ⟨0, 0, 0⟩⟩, [⟨0, 0, 0⟩, ⟨-2, 0, 0⟩, ⟨0, 0, 0⟩, ⟨-1, 0, 0⟩]⟩,
    ⟨1, ⟨⟨0, 1, 0⟩, ⟨0, -1, 0⟩, ⟨0, 0, 0⟩⟩, [⟨0, 0, 0⟩, ⟨0, 1, 0⟩, ⟨0, 1, 0⟩, ⟨0, 0, 0⟩]⟩,
    ⟨2, ⟨⟨0, -2, 0⟩, ⟨0, 3, 0⟩, ⟨0, 0, 0⟩⟩, [⟨0, 0, 0⟩, ⟨0, 1, 0⟩, ⟨0, 0, 0⟩, ⟨0, 1, 0⟩]⟩]
  s := ⟨⟨2, 0, 0, 0, 0, 0, 2, 0, 0⟩, ⟨0, 0, 2, 0, 0, 0, 0, 0, 4⟩, ⟨0, 0, 0, 0, 0, 0, 0, 0, 0⟩⟩
  n := 2
  m := 2
  reps := [⟨⟨0, 0, 0⟩, ⟨0, 0, 0⟩, ⟨0, 0, 0⟩⟩, ⟨⟨0, -2, 0⟩, ⟨0, 3, 0⟩, ⟨0, 0, 0⟩⟩]
  certs := [
    ⟨0, ⟨1, 0, 0, 0, 1, 0, 0, 0, 1⟩, ⟨0, 0, 0⟩, ⟨[0], [1], []⟩⟩,
    ⟨1, ⟨1, 0, 0, 0, 1, 0, 0, 0, 1⟩, ⟨0, 0, 0⟩, ⟨[0], [1], []⟩⟩]

/-- Class 29. -/
def k29 : Cls where
  gens := ⟨⟨-1, 0, 0, 0, -1, 0, 0, 0, -1⟩, ⟨-1, 0, 0, 0, -1, 0, 0, 0, 1⟩, ⟨-1, 0, 0, 0, 1, 0, 0, 0, -1⟩⟩
  words := [[], [0], [1], [2], [0, 1], [0, 2], [1, 2], [0, 1, 2]]
  rels := [([0, 1, 0], [1]), ([0, 2, 0], [2])]
  terms := [⟨2, ⟨⟨1, 0, 0⟩, ⟨0, 0, 0⟩, ⟨0, 0, 0⟩⟩, [⟨1, 0, 0⟩, ⟨0, 0, 0⟩]⟩,
    ⟨2, ⟨⟨0, 1, 0⟩, ⟨0, 0, 0⟩, ⟨0, 0, 0⟩⟩, [⟨0, 1, 0⟩, ⟨0, 0, 0⟩]⟩,
    ⟨2, ⟨⟨0, 0, 0⟩, ⟨0, 0, 1⟩, ⟨0, 0, 0⟩⟩, [⟨0, 0, -1⟩, ⟨0, 0, 0⟩]⟩,
    ⟨2, ⟨⟨1, 0, 0⟩, ⟨1, 0, 0⟩, ⟨0, 0, 0⟩⟩, [⟨-1, 0, 0⟩, ⟨1, 0, 0⟩]⟩,
    ⟨2, ⟨⟨0, 0, 0⟩, ⟨0, 0, 0⟩, ⟨0, 1, 0⟩⟩, [⟨0, 0, 0⟩, ⟨0, -1, 0⟩]⟩,
    ⟨2, ⟨⟨0, 0, 1⟩, ⟨0, 0, 0⟩, ⟨0, 0, 0⟩⟩, [⟨0, 0, 0⟩, ⟨0, 0, 1⟩]⟩]
  s := ⟨⟨0, 0, 0, 0, 0, 0, 0, 0, 0⟩, ⟨0, 0, 0, 0, 1, 0, 0, 0, 0⟩, ⟨1, 0, 0, 0, 0, 0, 0, 0, 1⟩⟩
  n := 2
  m := 4
  reps := [⟨⟨0, 0, 0⟩, ⟨0, 0, 0⟩, ⟨0, 0, 0⟩⟩, ⟨⟨0, 0, 2⟩, ⟨0, 0, 0⟩, ⟨0, 0, 0⟩⟩, ⟨⟨0, 0, 0⟩, ⟨0, 0, 0⟩, ⟨0, 2, 0⟩⟩, ⟨⟨0, 0, 2⟩, ⟨0, 0, 0⟩, ⟨0, 2, 0⟩⟩, ⟨⟨2, 0, 0⟩, ⟨2, 0, 0⟩, ⟨0, 2, 0⟩⟩, ⟨⟨2, 0, 2⟩, ⟨2, 0, 0⟩, ⟨0, 2, 0⟩⟩, ⟨⟨0, 0, 0⟩, ⟨0, 0, 2⟩, ⟨0, 2, 0⟩⟩, ⟨⟨0, 0, 2⟩, ⟨0, 0, 2⟩, ⟨0, 2, 0⟩⟩, ⟨⟨2, 0, 0⟩, ⟨2, 0, 2⟩, ⟨0, 2, 0⟩⟩, ⟨⟨0, 2, 2⟩, ⟨0, 0, 0⟩, ⟨0, 0, 0⟩⟩, ⟨⟨0, 2, 2⟩, ⟨0, 0, 0⟩, ⟨0, 2, 0⟩⟩, ⟨⟨2, 2, 2⟩, ⟨2, 0, 0⟩, ⟨0, 0, 0⟩⟩, ⟨⟨2, 2, 2⟩, ⟨2, 0, 0⟩, ⟨0, 2, 0⟩⟩, ⟨⟨2, 2, 2⟩, ⟨2, 0, 2⟩, ⟨0, 0, 0⟩⟩, ⟨⟨2, 2, 0⟩, ⟨2, 0, 2⟩, ⟨0, 2, 0⟩⟩, ⟨⟨2, 2, 2⟩, ⟨0, 0, 0⟩, ⟨0, 0, 0⟩⟩]
  certs := [
    ⟨0, ⟨1, 0, 0, 0, 1, 0, 0, 0, 1⟩, ⟨0, 0, 0⟩, ⟨[0], [1], [2]⟩⟩,
    ⟨1, ⟨1, 0, 0, 0, 1, 0, 0, 0, 1⟩, ⟨0, 0, 0⟩, ⟨[0], [1], [2]⟩⟩,
    ⟨2, ⟨1, 0, 0, 0, 1, 0, 0, 0, 1⟩, ⟨0, 0, 0⟩, ⟨[0], [1], [2]⟩⟩,
    ⟨3, ⟨1, 0, 0, 0, 1, 0, 0, 0, 1⟩, ⟨0, 0, 0⟩, ⟨[0], [1], [2]⟩⟩,
    ⟨2, ⟨0, -1, 0, -1, 0, 0, 0, 0, -1⟩, ⟨0, -1, 0⟩, ⟨[0], [1], [1, 2]⟩⟩,
    ⟨3, ⟨0, -1, 0, -1, 0, 0, 0, 0, -1⟩, ⟨0, -1, 0⟩, ⟨[0], [1], [1, 2]⟩⟩,
    ⟨4, ⟨1, 0, 0, 0, 1, 0, 0, 0, 1⟩, ⟨0, 0, 0⟩, ⟨[0], [1], [2]⟩⟩,
    ⟨5, ⟨1, 0, 0, 0, 1, 0, 0, 0, 1⟩, ⟨0, 0, 0⟩, ⟨[0], [1], [2]⟩⟩,
    ⟨2, ⟨-1, 0, 0, 0, 0, -1, 0, -1, 0⟩, ⟨0, 0, 0⟩, ⟨[0], [2], [1]⟩⟩,
    ⟨2, ⟨0, 1, 0, 0, 0, 1, 1, 0, 0⟩, ⟨0, -1, 0⟩, ⟨[0], [1, 2], [1]⟩⟩,
    ⟨6, ⟨1, 0, 0, 0, 1, 0, 0, 0, 1⟩, ⟨0, 0, 0⟩, ⟨[0], [1], [2]⟩⟩,
    ⟨7, ⟨1, 0, 0, 0, 1, 0, 0, 0, 1⟩, ⟨0, 0, 0⟩, ⟨[0], [1], [2]⟩⟩,
    ⟨7, ⟨0, -1, 0, -1, 0, 0, 0, 0, -1⟩, ⟨0, -1, 1⟩, ⟨[0], [1], [1, 2]⟩⟩,
    ⟨6, ⟨0, -1, 0, -1, 0, 0, 0, 0, -1⟩, ⟨0, -1, 1⟩, ⟨[0], [1], [1, 2]⟩⟩,
    ⟨8, ⟨1, 0, 0, 0, 1, 0, 0, 0, 1⟩, ⟨0, 0, 0⟩, ⟨[0], [1], [2]⟩⟩,
    ⟨8, ⟨0, -1, 0, -1, 0, 0, 0, 0, -1⟩, ⟨1, -1, 1⟩, ⟨[0], [1], [1, 2]⟩⟩,
    ⟨1, ⟨-1, 0, 0, 0, 0, -1, 0, -1, 0⟩, ⟨0, 0, 0⟩, ⟨[0], [2], [1]⟩⟩,
    ⟨9, ⟨1, 0, 0, 0, 1, 0, 0, 0, 1⟩, ⟨0, 0, 0⟩, ⟨[0], [1], [2]⟩⟩,
    ⟨2, ⟨0, 0, -1, 0, -1, 0, -1, 0, 0⟩, ⟨0, -1, 0⟩, ⟨[0], [1, 2], [2]⟩⟩,
    ⟨10, ⟨1, 0, 0, 0, 1, 0, 0, 0, 1⟩, ⟨0, 0, 0⟩, ⟨[0], [1], [2]⟩⟩,
    ⟨10, ⟨0, 0, 1, 1, 0, 0, 0, 1, 0⟩, ⟨0, 0, 0⟩, ⟨[0], [2], [1, 2]⟩⟩,
    ⟨11, ⟨1, 0, 0, 0, 1, 0, 0, 0, 1⟩, ⟨0, 0, 0⟩, ⟨[0], [1], [2]⟩⟩,
    ⟨7, ⟨0, 0, -1, 0, -1, 0, -1, 0, 0⟩, ⟨0, -1, 0⟩, ⟨[0], [1, 2], [2]⟩⟩,
    ⟨12, ⟨1, 0, 0, 0, 1, 0, 0, 0, 1⟩, ⟨0, 0, 0⟩, ⟨[0], [1], [2]⟩⟩,
    ⟨3, ⟨-1, 0, 0, 0, 0, -1, 0, -1, 0⟩, ⟨0, 0, 0⟩, ⟨[0], [2], [1]⟩⟩,
    ⟨10, ⟨-1, 0, 0, 0, 0, -1, 0, -1, 0⟩, ⟨0, 0, 0⟩, ⟨[0], [2], [1]⟩⟩,
    ⟨7, ⟨-1, 0, 0, 0, 0, -1, 0, -1, 0⟩, ⟨0, 0, 0⟩, ⟨[0], [2], [1]⟩⟩,
    ⟨4, ⟨0, 1, 0, 0, 0, 1, 1, 0, 0⟩, ⟨0, -1, 0⟩, ⟨[0], [1, 2], [1]⟩⟩,
    ⟨12, ⟨0, 0, 1, 1, 0, 0, 0, 1, 0⟩, ⟨1, 0, 0⟩, ⟨[0], [2], [1, 2]⟩⟩,
    ⟨13, ⟨1, 0, 0, 0, 1, 0, 0, 0, 1⟩, ⟨0, 0, 0⟩, ⟨[0], [1], [2]⟩⟩,
    ⟨14, ⟨1, 0, 0, 0, 1, 0, 0, 0, 1⟩, ⟨0, 0, 0⟩, ⟨[0], [1], [2]⟩⟩,
    ⟨8, ⟨0, 1, 0, 0, 0, 1, 1, 0, 0⟩, ⟨0, -1, 1⟩, ⟨[0], [1, 2], [1]⟩⟩,
    ⟨1, ⟨0, 1, 0, 0, 0, 1, 1, 0, 0⟩, ⟨0, 0, 0⟩, ⟨[0], [1, 2], [1]⟩⟩,
    ⟨9, ⟨0, -1, 0, -1, 0, 0, 0, 0, -1⟩, ⟨0, 0, 0⟩, ⟨[0], [1], [1, 2]⟩⟩,
    ⟨10, ⟨0, 0, -1, 0, -1, 0, -1, 0, 0⟩, ⟨0, -1, 0⟩, ⟨[0], [1, 2], [2]⟩⟩,
    ⟨11, ⟨0, -1, 0, -1, 0, 0, 0, 0, -1⟩, ⟨1, 0, 0⟩, ⟨[0], [1], [1, 2]⟩⟩,
    ⟨2, ⟨0, 0, 1, 1, 0, 0, 0, 1, 0⟩, ⟨0, 0, 0⟩, ⟨[0], [2], [1, 2]⟩⟩,
    ⟨10, ⟨0, -1, 0, -1, 0, 0, 0, 0, -1⟩, ⟨0, -1, 0⟩, ⟨[0], [1], [1, 2]⟩⟩,
    ⟨7, ⟨0, 0, 1, 1, 0, 0, 0, 1, 0⟩, ⟨0, 0, 1⟩, ⟨[0], [2], [1, 2]⟩⟩,
    ⟨12, ⟨0, -1, 0, -1, 0, 0, 0, 0, -1⟩, ⟨1, -1, 0⟩, ⟨[0], [1], [1, 2]⟩⟩,
    ⟨10, ⟨0, 1, 0, 0, 0, 1, 1, 0, 0⟩, ⟨0, -1, 0⟩, ⟨[0], [1, 2], [1]⟩⟩,
    ⟨3, ⟨0, 1, 0, 0, 0, 1, 1, 0, 0⟩, ⟨0, -1, 0⟩, ⟨[0], [1, 2], [1]⟩⟩,
    ⟨13, ⟨0, -1, 0, -1, 0, 0, 0, 0, -1⟩, ⟨1, 0, 1⟩, ⟨[0], [1], [1, 2]⟩⟩,
    ⟨12, ⟨0, 0, -1, 0, -1, 0, -1, 0, 0⟩, ⟨0, -1, 0⟩, ⟨[0], [1, 2], [2]⟩⟩,
    ⟨4, ⟨-1, 0, 0, 0, 0, -1, 0, -1, 0⟩, ⟨1, 0, 0⟩, ⟨[0], [2], [1]⟩⟩,
    ⟨7, ⟨0, 1, 0, 0, 0, 1, 1, 0, 0⟩, ⟨0, -1, 1⟩, ⟨[0], [1, 2], [1]⟩⟩,
    ⟨8, ⟨-1, 0, 0, 0, 0, -1, 0, -1, 0⟩, ⟨1, 0, 0⟩, ⟨[0], [2], [1]⟩⟩,
    ⟨14, ⟨0, -1, 0, -1, 0, 0, 0, 0, -1⟩, ⟨1, -1, 1⟩, ⟨[0], [1], [1, 2]⟩⟩,
    ⟨9, ⟨0, 0, 1, 1, 0, 0, 0, 1, 0⟩, ⟨0, 0, 0⟩, ⟨[0], [2], [1, 2]⟩⟩,
    ⟨15, ⟨1, 0, 0, 0, 1, 0, 0, 0, 1⟩, ⟨0, 0, 0⟩, ⟨[0], [1], [2]⟩⟩,
    ⟨3, ⟨0, 0, -1, 0, -1, 0, -1, 0, 0⟩, ⟨0, -1, 0⟩, ⟨[0], [1, 2], [2]⟩⟩,
    ⟨11, ⟨0, 1, 0, 0, 0, 1, 1, 0, 0⟩, ⟨0, 0, 0⟩, ⟨[0], [1, 2], [1]⟩⟩,
    ⟨3, ⟨0, 0, 1, 1, 0, 0, 0, 1, 0⟩, ⟨0, 0, 0⟩, ⟨[0], [2], [1, 2]⟩⟩,
    ⟨11, ⟨-1, 0, 0, 0, 0, -1, 0, -1, 0⟩, ⟨1, 0, 0⟩, ⟨[0], [2], [1]⟩⟩,
    ⟨6, ⟨0, 0, 1, 1, 0, 0, 0, 1, 0⟩, ⟨0, 0, 1⟩, ⟨[0], [2], [1, 2]⟩⟩,
    ⟨13, ⟨-1, 0, 0, 0, 0, -1, 0, -1, 0⟩, ⟨1, 0, 0⟩, ⟨[0], [2], [1]⟩⟩,
    ⟨11, ⟨0, 0, 1, 1, 0, 0, 0, 1, 0⟩, ⟨1, 0, 0⟩, ⟨[0], [2], [1, 2]⟩⟩,
    ⟨11, ⟨0, 0, -1, 0, -1, 0, -1, 0, 0⟩, ⟨0, 0, 0⟩, ⟨[0], [1, 2], [2]⟩⟩,
    ⟨12, ⟨0, 1, 0, 0, 0, 1, 1, 0, 0⟩, ⟨0, -1, 0⟩, ⟨[0], [1, 2], [1]⟩⟩,
    ⟨5, ⟨0, 1, 0, 0, 0, 1, 1, 0, 0⟩, ⟨0, -1, 0⟩, ⟨[0], [1, 2], [1]⟩⟩,
    ⟨5, ⟨-1, 0, 0, 0, 0, -1, 0, -1, 0⟩, ⟨1, 0, 0⟩, ⟨[0], [2], [1]⟩⟩,
    ⟨12, ⟨-1, 0, 0, 0, 0, -1, 0, -1, 0⟩, ⟨1, 0, 0⟩, ⟨[0], [2], [1]⟩⟩,
    ⟨8, ⟨0, 0, 1, 1, 0, 0, 0, 1, 0⟩, ⟨1, 0, 1⟩, ⟨[0], [2], [1, 2]⟩⟩,
    ⟨8, ⟨0, 0, -1, 0, -1, 0, -1, 0, 0⟩, ⟨0, -1, 0⟩, ⟨[0], [1, 2], [2]⟩⟩]

/-- Class 30. -/
def k30 : Cls where
  gens := ⟨⟨-1, 0, 0, 0, -1, 0, 0, 0, -1⟩, ⟨-1, 0, 0, 0, 0, -1, 0, -1, 0⟩, ⟨-1, 0, 0, 0, 0, 1, 0, 1, 0⟩⟩
  words := [[], [0], [1], [2], [0, 1], [0, 2], [1, 2], [0, 1, 2]]
  rels := [([1, 1], []), ([2, 2], []), ([0, 1, 0], [1]), ([0, 2, 0], [2])]
  terms := [⟨1, ⟨⟨0, 0, 0⟩, ⟨0, 1, 0⟩, ⟨0, 0, 0⟩⟩, [⟨0, 1, 0⟩, ⟨0, 0, 0⟩, ⟨0, 0, 0⟩, ⟨0, 0, 0⟩]⟩,
    ⟨1, ⟨⟨0, 0, 0⟩, ⟨0, 0, 0⟩, ⟨0, 1, 0⟩⟩, [⟨0, 0, 0⟩, ⟨0, 1, 0⟩, ⟨0, 0, 0⟩, ⟨0, 0, 0⟩]⟩,
    ⟨1, ⟨⟨0, 0, 1⟩, ⟨0, 0, 0⟩, ⟨0, 0, 0⟩⟩, [⟨0, 2, 0⟩, ⟨0, 0, 0⟩, ⟨0, 1, 0⟩, ⟨0, 0, 0⟩]⟩,
    ⟨2, ⟨⟨0, 0, 0⟩, ⟨1, 0, 0⟩, ⟨0, 0, 0⟩⟩, [⟨0, 0, 0⟩, ⟨0, 0, 0⟩, ⟨-1, 0, 0⟩, ⟨0, 0, 0⟩]⟩,
    ⟨2, ⟨⟨1, 0, 0⟩, ⟨1, 0, 0⟩, ⟨0, 0, 0⟩⟩, [⟨0, 0, 0⟩, ⟨0, 0, 0⟩, ⟨0, 0, 0⟩, ⟨1, 0, 0⟩]⟩,
    ⟨2, ⟨⟨0, 0, 2⟩, ⟨0, 1, 1⟩, ⟨0, 0, 0⟩⟩, [⟨0, -2, 0⟩, ⟨0, -2, 0⟩, ⟨0, -1, 0⟩, ⟨0, -1, 0⟩]⟩]
  s := ⟨⟨0, 0, 0, 0, 1, 0, 0, 1, 0⟩, ⟨0, 0, 0, 0, 0, 0, 0, 0, 0⟩, ⟨1, 0, 0, 0, 0, 0, 0, 0, 2⟩⟩
  n := 2
  m := 4
  reps := [⟨⟨0, 0, 0⟩, ⟨0, 0, 0⟩, ⟨0, 0, 0⟩⟩, ⟨⟨0, 0, 4⟩, ⟨0, 2, 2⟩, ⟨0, 0, 0⟩⟩, ⟨⟨2, 0, 0⟩, ⟨2, 0, 0⟩, ⟨0, 0, 0⟩⟩, ⟨⟨2, 0, 4⟩, ⟨2, 2, 2⟩, ⟨0, 0, 0⟩⟩, ⟨⟨2, 0, 0⟩, ⟨4, 0, 0⟩, ⟨0, 0, 0⟩⟩, ⟨⟨2, 0, 4⟩, ⟨4, 2, 2⟩, ⟨0, 0, 0⟩⟩]
  certs := [
    ⟨0, ⟨1, 0, 0, 0, 1, 0, 0, 0, 1⟩, ⟨0, 0, 0⟩, ⟨[0], [1], [2]⟩⟩,
    ⟨1, ⟨1, 0, 0, 0, 1, 0, 0, 0, 1⟩, ⟨0, 0, 0⟩, ⟨[0], [1], [2]⟩⟩,
    ⟨2, ⟨1, 0, 0, 0, 1, 0, 0, 0, 1⟩, ⟨0, 0, 0⟩, ⟨[0], [1], [2]⟩⟩,
    ⟨3, ⟨1, 0, 0, 0, 1, 0, 0, 0, 1⟩, ⟨0, 0, 0⟩, ⟨[0], [1], [2]⟩⟩,
    ⟨2, ⟨1, 0, 0, 0, 0, -1, 0, 1, 0⟩, ⟨1, 0, 0⟩, ⟨[0], [2], [1]⟩⟩,
    ⟨3, ⟨1, 0, 0, 0, 0, -1, 0, 1, 0⟩, ⟨1, 0, 2⟩, ⟨[0], [2], [1]⟩⟩,
    ⟨4, ⟨1, 0, 0, 0, 1, 0, 0, 0, 1⟩, ⟨0, 0, 0⟩, ⟨[0], [1], [2]⟩⟩,
    ⟨5, ⟨1, 0, 0, 0, 1, 0, 0, 0, 1⟩, ⟨0, 0, 0⟩, ⟨[0], [1], [2]⟩⟩]

/-- Class 31. -/
def k31 : Cls where
  gens := ⟨⟨-1, 0, 0, 0, -1, 0, 0, 0, -1⟩, ⟨-1, 0, 0, -1, 0, 1, -1, 1, 0⟩, ⟨0, -1, 1, -1, 0, 1, 0, 0, 1⟩⟩
  words := [[], [0], [1], [2], [0, 1], [0, 2], [1, 2], [0, 1, 2]]
  rels := [([2, 2], []), ([0, 1, 0], [1]), ([1, 2, 1], [2])]
  terms := [⟨1, ⟨⟨0, 0, 0⟩, ⟨0, 0, 0⟩, ⟨1, 0, 0⟩⟩, [⟨1, 0, 0⟩, ⟨0, 0, 0⟩, ⟨0, 0, 0⟩]⟩,
    ⟨1, ⟨⟨0, 1, 0⟩, ⟨0, 0, 0⟩, ⟨0, 0, 0⟩⟩, [⟨0, 0, 0⟩, ⟨0, 1, 0⟩, ⟨0, 0, 0⟩]⟩,
    ⟨1, ⟨⟨0, 0, 0⟩, ⟨1, 0, 0⟩, ⟨0, 0, 0⟩⟩, [⟨2, 0, 0⟩, ⟨0, 0, 0⟩, ⟨1, 0, 0⟩]⟩,
    ⟨2, ⟨⟨0, 2, 0⟩, ⟨-1, 1, 0⟩, ⟨0, 0, 0⟩⟩, [⟨4, 0, 0⟩, ⟨1, 0, 0⟩, ⟨2, 0, 0⟩]⟩,
    ⟨2, ⟨⟨0, -4, 0⟩, ⟨0, -2, 0⟩, ⟨-1, 0, 1⟩⟩, [⟨1, 1, 0⟩, ⟨0, 0, 0⟩, ⟨0, 0, 0⟩]⟩,
    ⟨2, ⟨⟨0, 2, 0⟩, ⟨0, 1, 1⟩, ⟨0, 0, 0⟩⟩, [⟨-2, 1, 0⟩, ⟨-1, 0, 0⟩, ⟨-2, 1, 0⟩]⟩]
  s := ⟨⟨1, 0, 0, -1, 0, 1, 0, 0, 1⟩, ⟨0, 0, 0, 0, 0, 0, 0, 0, 0⟩, ⟨0, 0, 0, 0, 2, 0, 0, 0, 0⟩⟩
  n := 2
  m := 2
  reps := [⟨⟨0, 0, 0⟩, ⟨0, 0, 0⟩, ⟨0, 0, 0⟩⟩, ⟨⟨0, 2, 0⟩, ⟨0, 1, 1⟩, ⟨0, 0, 0⟩⟩, ⟨⟨0, -2, 0⟩, ⟨0, -1, 1⟩, ⟨-1, 0, 1⟩⟩, ⟨⟨0, -2, 0⟩, ⟨-1, -1, 0⟩, ⟨-1, 0, 1⟩⟩]
  certs := [
    ⟨0, ⟨1, 0, 0, 0, 1, 0, 0, 0, 1⟩, ⟨0, 0, 0⟩, ⟨[0], [1], [2]⟩⟩,
    ⟨1, ⟨1, 0, 0, 0, 1, 0, 0, 0, 1⟩, ⟨0, 0, 0⟩, ⟨[0], [1], [2]⟩⟩,
    ⟨1, ⟨0, -1, 1, 0, 0, 1, -1, 0, 1⟩, ⟨0, 1, 0⟩, ⟨[0], [1], [1, 2]⟩⟩,
    ⟨2, ⟨1, 0, 0, 0, 1, 0, 0, 0, 1⟩, ⟨0, 0, 0⟩, ⟨[0], [1], [2]⟩⟩,
    ⟨2, ⟨0, 0, 1, 1, 0, 0, 0, 1, 0⟩, ⟨0, -1, 0⟩, ⟨[0], [0, 2], [1, 2]⟩⟩,
    ⟨1, ⟨1, 0, -1, 1, 0, 0, 1, -1, 0⟩, ⟨0, 1, 1⟩, ⟨[0], [0, 1, 2], [2]⟩⟩,
    ⟨3, ⟨1, 0, 0, 0, 1, 0, 0, 0, 1⟩, ⟨0, 0, 0⟩, ⟨[0], [1], [2]⟩⟩,
    ⟨2, ⟨1, 0, -1, 1, 0, 0, 1, -1, 0⟩, ⟨0, -1, 0⟩, ⟨[0], [0, 1, 2], [2]⟩⟩]

/-- Class 32. -/
def k32 : Cls where
  gens := ⟨⟨-1, 0, 0, 0, -1, 0, 0, 0, -1⟩, ⟨-1, -1, -1, 0, 0, 1, 0, 1, 0⟩, ⟨0, -1, 0, -1, 0, 0, 1, 1, 1⟩⟩
  words := [[], [0], [1], [2], [0, 1], [0, 2], [1, 2], [0, 1, 2]]
  rels := [([1, 1], []), ([2, 2], []), ([0, 1, 0], [1]), ([0, 2, 0], [2]), ([1, 2, 1], [2])]
  terms := [⟨1, ⟨⟨0, 0, 0⟩, ⟨0, 1, 0⟩, ⟨0, 0, 0⟩⟩, [⟨-1, 0, 0⟩, ⟨0, 0, 0⟩, ⟨0, 0, 0⟩, ⟨0, 0, 0⟩, ⟨0, 0, 0⟩]⟩,
    ⟨1, ⟨⟨0, 0, 0⟩, ⟨0, 0, 0⟩, ⟨1, 0, 0⟩⟩, [⟨0, 0, 0⟩, ⟨1, 0, 0⟩, ⟨0, 0, 0⟩, ⟨0, 0, 0⟩, ⟨0, 0, 0⟩]⟩,
    ⟨1, ⟨⟨0, 0, 1⟩, ⟨0, 0, 0⟩, ⟨0, 0, 0⟩⟩, [⟨0, 0, 0⟩, ⟨0, 0, 0⟩, ⟨1, 0, 0⟩, ⟨0, 0, 0⟩, ⟨0, 0, 0⟩]⟩,
    ⟨1, ⟨⟨1, 0, -2⟩, ⟨0, 0, 0⟩, ⟨0, 0, 0⟩⟩, [⟨0, 0, 0⟩, ⟨2, 0, 0⟩, ⟨0, 0, 0⟩, ⟨1, 0, 0⟩, ⟨0, 0, 0⟩]⟩,
    ⟨1, ⟨⟨0, 0, 2⟩, ⟨1, 0, 0⟩, ⟨0, 0, 0⟩⟩, [⟨0, 0, 0⟩, ⟨2, 0, 0⟩, ⟨0, 0, 0⟩, ⟨0, 0, 0⟩, ⟨1, 0, 0⟩]⟩,
    ⟨2, ⟨⟨2, 0, 2⟩, ⟨3, 0, 0⟩, ⟨1, 1, 0⟩⟩, [⟨0, 0, 0⟩, ⟨-1, 0, 1⟩, ⟨0, 0, 0⟩, ⟨0, 0, 0⟩, ⟨0, 0, 0⟩]⟩]
  s := ⟨⟨0, -1, 0, 0, 1, 0, 0, 1, 0⟩, ⟨0, 0, 0, 0, 0, 0, 0, 0, 2⟩, ⟨0, 0, -2, 0, 0, 0, 0, 0, 0⟩⟩
  n := 2
  m := 2
  reps := [⟨⟨0, 0, 0⟩, ⟨0, 0, 0⟩, ⟨0, 0, 0⟩⟩, ⟨⟨2, 0, 2⟩, ⟨3, 0, 0⟩, ⟨1, 1, 0⟩⟩]
  certs := [
    ⟨0, ⟨1, 0, 0, 0, 1, 0, 0, 0, 1⟩, ⟨0, 0, 0⟩, ⟨[0], [1], [2]⟩⟩,
    ⟨1, ⟨1, 0, 0, 0, 1, 0, 0, 0, 1⟩, ⟨0, 0, 0⟩, ⟨[0], [1], [2]⟩⟩]

/-- Class 33. -/
def k33 : Cls where
  gens := ⟨⟨1, 0, 0, 0, 0, -1, 0, 1, 0⟩, ⟨1, 0, 0, 0, -1, 0, 0, 0, 1⟩, ⟨1, 0, 0, 0, 1, 0, 0, 0, 1⟩⟩
  words := [[], [0], [1], [0, 0], [0, 1], [1, 0], [0, 0, 0], [0, 0, 1]]
  rels := [([2], []), ([1, 1], []), ([0, 1, 0], [1])]
  terms := [⟨1, ⟨⟨0, 0, 0⟩, ⟨0, 0, 0⟩, ⟨1, 0, 0⟩⟩, [⟨1, 0, 0⟩, ⟨0, 0, 0⟩, ⟨0, 0, 0⟩]⟩,
    ⟨1, ⟨⟨0, 0, 0⟩, ⟨0, 0, 0⟩, ⟨0, 1, 0⟩⟩, [⟨0, 1, 0⟩, ⟨0, 0, 0⟩, ⟨0, 0, 0⟩]⟩,
    ⟨1, ⟨⟨0, 0, 0⟩, ⟨0, 0, 0⟩, ⟨0, 0, 1⟩⟩, [⟨0, 0, 1⟩, ⟨0, 0, 0⟩, ⟨0, 0, 0⟩]⟩,
    ⟨1, ⟨⟨0, 0, 0⟩, ⟨0, 1, 0⟩, ⟨0, 0, 0⟩⟩, [⟨0, 0, 0⟩, ⟨0, 0, 0⟩, ⟨0, -1, 0⟩]⟩,
    ⟨2, ⟨⟨0, 0, 0⟩, ⟨0, -1, 1⟩, ⟨0, 0, 0⟩⟩, [⟨0, 0, 0⟩, ⟨0, 0, 1⟩, ⟨0, 0, 0⟩]⟩,
    ⟨2, ⟨⟨1, 0, 0⟩, ⟨0, 0, 0⟩, ⟨0, 0, 0⟩⟩, [⟨0, 0, 0⟩, ⟨0, 0, 0⟩, ⟨1, 0, 0⟩]⟩,
    ⟨2, ⟨⟨0, 0, 0⟩, ⟨1, 0, 0⟩, ⟨0, 0, 0⟩⟩, [⟨0, 0, 0⟩, ⟨1, 0, 0⟩, ⟨0, 0, 0⟩]⟩]
  s := ⟨⟨0, 0, 0, 0, 1, -1, 0, 1, 1⟩, ⟨0, 0, 0, 0, 0, 0, 0, 0, 0⟩, ⟨0, 0, 0, 0, 0, 0, 0, 0, 0⟩⟩
  n := 2
  m := 2
  reps := [⟨⟨0, 0, 0⟩, ⟨0, 0, 0⟩, ⟨0, 0, 0⟩⟩, ⟨⟨0, 0, 0⟩, ⟨1, 0, 0⟩, ⟨0, 0, 0⟩⟩, ⟨⟨1, 0, 0⟩, ⟨0, 0, 0⟩, ⟨0, 0, 0⟩⟩, ⟨⟨1, 0, 0⟩, ⟨1, 0, 0⟩, ⟨0, 0, 0⟩⟩, ⟨⟨0, 0, 0⟩, ⟨0, -1, 1⟩, ⟨0, 0, 0⟩⟩, ⟨⟨0, 0, 0⟩, ⟨1, -1, 1⟩, ⟨0, 0, 0⟩⟩, ⟨⟨1, 0, 0⟩, ⟨0, -1, 1⟩, ⟨0, 0, 0⟩⟩, ⟨⟨1, 0, 0⟩, ⟨1, -1, 1⟩, ⟨0, 0, 0⟩⟩]
  certs := [
    ⟨0, ⟨1, 0, 0, 0, 1, 0, 0, 0, 1⟩, ⟨0, 0, 0⟩, ⟨[0], [1], []⟩⟩,
    ⟨1, ⟨1, 0, 0, 0, 1, 0, 0, 0, 1⟩, ⟨0, 0, 0⟩, ⟨[0], [1], []⟩⟩,
    ⟨2, ⟨1, 0, 0, 0, 1, 0, 0, 0, 1⟩, ⟨0, 0, 0⟩, ⟨[0], [1], []⟩⟩,
    ⟨3, ⟨1, 0, 0, 0, 1, 0, 0, 0, 1⟩, ⟨0, 0, 0⟩, ⟨[0], [1], []⟩⟩,
    ⟨4, ⟨1, 0, 0, 0, 1, 0, 0, 0, 1⟩, ⟨0, 0, 0⟩, ⟨[0], [1], []⟩⟩,
    ⟨5, ⟨1, 0, 0, 0, 1, 0, 0, 0, 1⟩, ⟨0, 0, 0⟩, ⟨[0], [1], []⟩⟩,
    ⟨6, ⟨1, 0, 0, 0, 1, 0, 0, 0, 1⟩, ⟨0, 0, 0⟩, ⟨[0], [1], []⟩⟩,
    ⟨7, ⟨1, 0, 0, 0, 1, 0, 0, 0, 1⟩, ⟨0, 0, 0⟩, ⟨[0], [1], []⟩⟩]

/-- Class 34. -/
def k34 : Cls where
  gens := ⟨⟨0, -1, 1, 0, 0, 1, -1, 0, 1⟩, ⟨1, 0, 0, 0, 0, 1, 0, 1, 0⟩, ⟨1, 0, 0, 0, 1, 0, 0, 0, 1⟩⟩
  words := [[], [0], [1], [0, 0], [0, 1], [1, 0], [0, 0, 0], [0, 0, 1]]
  rels := [([2], []), ([1, 1], []), ([0, 1, 0], [1])]
  terms := [⟨1, ⟨⟨0, 0, 0⟩, ⟨0, 0, 0⟩, ⟨1, 0, 0⟩⟩, [⟨1, 0, 0⟩, ⟨0, 0, 0⟩, ⟨0, 0, 0⟩]⟩,
    ⟨1, ⟨⟨0, 0, 0⟩, ⟨0, 0, 0⟩, ⟨0, 1, 0⟩⟩, [⟨0, 1, 0⟩, ⟨0, 0, 0⟩, ⟨0, 0, 0⟩]⟩,
    ⟨1, ⟨⟨0, 0, 0⟩, ⟨0, 0, 0⟩, ⟨0, 0, 1⟩⟩, [⟨0, 0, 1⟩, ⟨0, 0, 0⟩, ⟨0, 0, 0⟩]⟩,
    ⟨1, ⟨⟨0, 0, 0⟩, ⟨0, 1, 0⟩, ⟨0, 0, 0⟩⟩, [⟨0, 0, 0⟩, ⟨0, 1, 0⟩, ⟨0, 0, 0⟩]⟩,
    ⟨1, ⟨⟨0, 0, 0⟩, ⟨1, 0, 0⟩, ⟨0, 0, 0⟩⟩, [⟨0, 0, 0⟩, ⟨0, -1, 0⟩, ⟨-1, 0, 0⟩]⟩,
    ⟨2, ⟨⟨1, 0, 0⟩, ⟨1, 0, 0⟩, ⟨0, 0, 0⟩⟩, [⟨0, 0, 0⟩, ⟨1, 2, 0⟩, ⟨2, 0, 0⟩]⟩,
    ⟨2, ⟨⟨-2, 0, 0⟩, ⟨0, -1, 1⟩, ⟨0, 0, 0⟩⟩, [⟨0, 0, 0⟩, ⟨0, 1, 0⟩, ⟨0, 1, 0⟩]⟩]
  s := ⟨⟨0, 0, 2, 0, 2, 0, 0, 0, 0⟩, ⟨0, 0, 0, 0, 0, 0, 0, 0, 0⟩, ⟨0, 0, 0, 0, 0, 0, 0, 0, 0⟩⟩
  n := 2
  m := 2
  reps := [⟨⟨0, 0, 0⟩, ⟨0, 0, 0⟩, ⟨0, 0, 0⟩⟩, ⟨⟨-2, 0, 0⟩, ⟨0, -1, 1⟩, ⟨0, 0, 0⟩⟩, ⟨⟨1, 0, 0⟩, ⟨1, 0, 0⟩, ⟨0, 0, 0⟩⟩, ⟨⟨-1, 0, 0⟩, ⟨1, -1, 1⟩, ⟨0, 0, 0⟩⟩]
  certs := [
    ⟨0, ⟨1, 0, 0, 0, 1, 0, 0, 0, 1⟩, ⟨0, 0, 0⟩, ⟨[0], [1], []⟩⟩,
    ⟨1, ⟨1, 0, 0, 0, 1, 0, 0, 0, 1⟩, ⟨0, 0, 0⟩, ⟨[0], [1], []⟩⟩,
    ⟨2, ⟨1, 0, 0, 0, 1, 0, 0, 0, 1⟩, ⟨0, 0, 0⟩, ⟨[0], [1], []⟩⟩,
    ⟨3, ⟨1, 0, 0, 0, 1, 0, 0, 0, 1⟩, ⟨0, 0, 0⟩, ⟨[0], [1], []⟩⟩]

/-- Class 35. -/
def k35 : Cls where
  gens := ⟨⟨-1, 0, 0, 0, 0, -1, 0, 1, 0⟩, ⟨1, 0, 0, 0, 0, -1, 0, 1, 0⟩, ⟨1, 0, 0, 0, 1, 0, 0, 0, 1⟩⟩
  words := [[], [0], [1], [0, 0], [0, 1], [0, 0, 0], [0, 0, 1], [0, 0, 0, 1]]
  rels := [([2], []), ([0, 0, 1, 1], [])]
  terms := [⟨1, ⟨⟨0, 0, 0⟩, ⟨0, 0, 0⟩, ⟨1, 0, 0⟩⟩, [⟨1, 0, 0⟩, ⟨0, 0, 0⟩]⟩,
    ⟨1, ⟨⟨0, 0, 0⟩, ⟨0, 0, 0⟩, ⟨0, 1, 0⟩⟩, [⟨0, 1, 0⟩, ⟨0, 0, 0⟩]⟩,
    ⟨1, ⟨⟨0, 0, 0⟩, ⟨0, 0, 0⟩, ⟨0, 0, 1⟩⟩, [⟨0, 0, 1⟩, ⟨0, 0, 0⟩]⟩,
    ⟨1, ⟨⟨0, 0, 0⟩, ⟨0, 1, 0⟩, ⟨0, 0, 0⟩⟩, [⟨0, 0, 0⟩, ⟨0, -1, 0⟩]⟩,
    ⟨2, ⟨⟨0, 0, 0⟩, ⟨1, 0, 0⟩, ⟨0, 0, 0⟩⟩, [⟨0, 0, 0⟩, ⟨1, 0, 0⟩]⟩,
    ⟨2, ⟨⟨0, 0, 0⟩, ⟨0, 1, 1⟩, ⟨0, 0, 0⟩⟩, [⟨0, 0, 0⟩, ⟨0, 1, -1⟩]⟩]
  s := ⟨⟨1, 0, 0, 0, 1, -1, 0, 1, 1⟩, ⟨0, 0, 0, 0, 0, 0, 0, 0, 0⟩, ⟨0, 0, 0, 0, 0, 0, 0, 0, 0⟩⟩
  n := 2
  m := 2
  reps := [⟨⟨0, 0, 0⟩, ⟨0, 0, 0⟩, ⟨0, 0, 0⟩⟩, ⟨⟨0, 0, 0⟩, ⟨0, 1, 1⟩, ⟨0, 0, 0⟩⟩, ⟨⟨0, 0, 0⟩, ⟨1, 0, 0⟩, ⟨0, 0, 0⟩⟩, ⟨⟨0, 0, 0⟩, ⟨1, 1, 1⟩, ⟨0, 0, 0⟩⟩]
  certs := [
    ⟨0, ⟨1, 0, 0, 0, 1, 0, 0, 0, 1⟩, ⟨0, 0, 0⟩, ⟨[0], [1], []⟩⟩,
    ⟨1, ⟨1, 0, 0, 0, 1, 0, 0, 0, 1⟩, ⟨0, 0, 0⟩, ⟨[0], [1], []⟩⟩,
    ⟨2, ⟨1, 0, 0, 0, 1, 0, 0, 0, 1⟩, ⟨0, 0, 0⟩, ⟨[0], [1], []⟩⟩,
    ⟨3, ⟨1, 0, 0, 0, 1, 0, 0, 0, 1⟩, ⟨0, 0, 0⟩, ⟨[0], [1], []⟩⟩]

/-- Class 36. -/
def k36 : Cls where
  gens := ⟨⟨0, -1, 1, 0, 0, 1, -1, 0, 1⟩, ⟨0, -1, 1, 1, -1, 0, 0, -1, 0⟩, ⟨1, 0, 0, 0, 1, 0, 0, 0, 1⟩⟩
  words := [[], [0], [1], [0, 0], [0, 1], [0, 0, 0], [0, 0, 1], [0, 0, 0, 1]]
  rels := [([2], []), ([0, 0, 1, 1], [])]
  terms := [⟨1, ⟨⟨0, 0, 0⟩, ⟨0, 0, 0⟩, ⟨1, 0, 0⟩⟩, [⟨1, 0, 0⟩, ⟨0, 0, 0⟩]⟩,
    ⟨1, ⟨⟨0, 0, 0⟩, ⟨0, 0, 0⟩, ⟨0, 1, 0⟩⟩, [⟨0, 1, 0⟩, ⟨0, 0, 0⟩]⟩,
    ⟨1, ⟨⟨0, 0, 0⟩, ⟨0, 0, 0⟩, ⟨0, 0, 1⟩⟩, [⟨0, 0, 1⟩, ⟨0, 0, 0⟩]⟩,
    ⟨1, ⟨⟨0, 0, 0⟩, ⟨1, 0, 0⟩, ⟨0, 0, 0⟩⟩, [⟨0, 0, 0⟩, ⟨-1, 0, 0⟩]⟩,
    ⟨1, ⟨⟨0, 0, 0⟩, ⟨1, 1, 0⟩, ⟨0, 0, 0⟩⟩, [⟨0, 0, 0⟩, ⟨1, -1, 0⟩]⟩,
    ⟨2, ⟨⟨1, 0, 0⟩, ⟨0, -1, 0⟩, ⟨0, 0, 0⟩⟩, [⟨0, 0, 0⟩, ⟨1, -1, -1⟩]⟩]
  s := ⟨⟨0, 0, 2, 0, 1, 0, 0, -1, 0⟩, ⟨0, 0, 0, 0, 0, 1, 0, 0, 1⟩, ⟨0, 0, 0, 0, 0, 0, 0, 0, 0⟩⟩
  n := 2
  m := 2
  reps := [⟨⟨0, 0, 0⟩, ⟨0, 0, 0⟩, ⟨0, 0, 0⟩⟩, ⟨⟨1, 0, 0⟩, ⟨0, -1, 0⟩, ⟨0, 0, 0⟩⟩]
  certs := [
    ⟨0, ⟨1, 0, 0, 0, 1, 0, 0, 0, 1⟩, ⟨0, 0, 0⟩, ⟨[0], [1], []⟩⟩,
    ⟨1, ⟨1, 0, 0, 0, 1, 0, 0, 0, 1⟩, ⟨0, 0, 0⟩, ⟨[0], [1], []⟩⟩]

/-- Class 37. -/
def k37 : Cls where
  gens := ⟨⟨-1, 0, 0, 0, 0, -1, 0, 1, 0⟩, ⟨-1, 0, 0, 0, -1, 0, 0, 0, 1⟩, ⟨1, 0, 0, 0, 1, 0, 0, 0, 1⟩⟩
  words := [[], [0], [1], [0, 0], [0, 1], [1, 0], [0, 0, 0], [0, 0, 1]]
  rels := [([2], []), ([0, 1, 0], [1])]
  terms := [⟨1, ⟨⟨0, 0, 0⟩, ⟨0, 0, 0⟩, ⟨1, 0, 0⟩⟩, [⟨1, 0, 0⟩, ⟨0, 0, 0⟩]⟩,
    ⟨1, ⟨⟨0, 0, 0⟩, ⟨0, 0, 0⟩, ⟨0, 1, 0⟩⟩, [⟨0, 1, 0⟩, ⟨0, 0, 0⟩]⟩,
    ⟨1, ⟨⟨0, 0, 0⟩, ⟨0, 0, 0⟩, ⟨0, 0, 1⟩⟩, [⟨0, 0, 1⟩, ⟨0, 0, 0⟩]⟩,
    ⟨1, ⟨⟨0, 0, 0⟩, ⟨0, 1, 0⟩, ⟨0, 0, 0⟩⟩, [⟨0, 0, 0⟩, ⟨0, -1, 0⟩]⟩,
    ⟨2, ⟨⟨0, 0, 0⟩, ⟨1, 0, 0⟩, ⟨0, 0, 0⟩⟩, [⟨0, 0, 0⟩, ⟨-1, 0, 0⟩]⟩,
    ⟨2, ⟨⟨0, 0, 0⟩, ⟨0, -1, 1⟩, ⟨0, 0, 0⟩⟩, [⟨0, 0, 0⟩, ⟨0, -1, -1⟩]⟩]
  s := ⟨⟨1, 0, 0, 0, 1, -1, 0, 1, 1⟩, ⟨0, 0, 0, 0, 0, 0, 0, 0, 0⟩, ⟨0, 0, 0, 0, 0, 0, 0, 0, 0⟩⟩
  n := 2
  m := 2
  reps := [⟨⟨0, 0, 0⟩, ⟨0, 0, 0⟩, ⟨0, 0, 0⟩⟩, ⟨⟨0, 0, 0⟩, ⟨0, -1, 1⟩, ⟨0, 0, 0⟩⟩, ⟨⟨0, 0, 0⟩, ⟨1, 0, 0⟩, ⟨0, 0, 0⟩⟩, ⟨⟨0, 0, 0⟩, ⟨1, -1, 1⟩, ⟨0, 0, 0⟩⟩]
  certs := [
    ⟨0, ⟨1, 0, 0, 0, 1, 0, 0, 0, 1⟩, ⟨0, 0, 0⟩, ⟨[0], [1], []⟩⟩,
    ⟨1, ⟨1, 0, 0, 0, 1, 0, 0, 0, 1⟩, ⟨0, 0, 0⟩, ⟨[0], [1], []⟩⟩,
    ⟨2, ⟨1, 0, 0, 0, 1, 0, 0, 0, 1⟩, ⟨0, 0, 0⟩, ⟨[0], [1], []⟩⟩,
    ⟨3, ⟨1, 0, 0, 0, 1, 0, 0, 0, 1⟩, ⟨0, 0, 0⟩, ⟨[0], [1], []⟩⟩]

/-- Class 38. -/
def k38 : Cls where
  gens := ⟨⟨-1, 0, 0, 0, 0, -1, 0, 1, 0⟩, ⟨-1, 0, 0, 0, 0, -1, 0, -1, 0⟩, ⟨1, 0, 0, 0, 1, 0, 0, 0, 1⟩⟩
  words := [[], [0], [1], [0, 0], [0, 1], [1, 0], [0, 0, 0], [0, 0, 1]]
  rels := [([2], []), ([0, 1, 0], [1])]
  terms := [⟨1, ⟨⟨0, 0, 0⟩, ⟨0, 0, 0⟩, ⟨1, 0, 0⟩⟩, [⟨1, 0, 0⟩, ⟨0, 0, 0⟩]⟩,
    ⟨1, ⟨⟨0, 0, 0⟩, ⟨0, 0, 0⟩, ⟨0, 1, 0⟩⟩, [⟨0, 1, 0⟩, ⟨0, 0, 0⟩]⟩,
    ⟨1, ⟨⟨0, 0, 0⟩, ⟨0, 0, 0⟩, ⟨0, 0, 1⟩⟩, [⟨0, 0, 1⟩, ⟨0, 0, 0⟩]⟩,
    ⟨1, ⟨⟨0, 0, 0⟩, ⟨0, 1, 0⟩, ⟨0, 0, 0⟩⟩, [⟨0, 0, 0⟩, ⟨0, -1, 0⟩]⟩,
    ⟨2, ⟨⟨0, 0, 0⟩, ⟨1, 0, 0⟩, ⟨0, 0, 0⟩⟩, [⟨0, 0, 0⟩, ⟨-1, 0, 0⟩]⟩,
    ⟨2, ⟨⟨0, 0, 0⟩, ⟨0, -1, 1⟩, ⟨0, 0, 0⟩⟩, [⟨0, 0, 0⟩, ⟨0, -1, -1⟩]⟩]
  s := ⟨⟨1, 0, 0, 0, 1, -1, 0, 1, 1⟩, ⟨0, 0, 0, 0, 0, 0, 0, 0, 0⟩, ⟨0, 0, 0, 0, 0, 0, 0, 0, 0⟩⟩
  n := 2
  m := 2
  reps := [⟨⟨0, 0, 0⟩, ⟨0, 0, 0⟩, ⟨0, 0, 0⟩⟩, ⟨⟨0, 0, 0⟩, ⟨0, -1, 1⟩, ⟨0, 0, 0⟩⟩, ⟨⟨0, 0, 0⟩, ⟨1, 0, 0⟩, ⟨0, 0, 0⟩⟩, ⟨⟨0, 0, 0⟩, ⟨1, -1, 1⟩, ⟨0, 0, 0⟩⟩]
  certs := [
    ⟨0, ⟨1, 0, 0, 0, 1, 0, 0, 0, 1⟩, ⟨0, 0, 0⟩, ⟨[0], [1], []⟩⟩,
    ⟨1, ⟨1, 0, 0, 0, 1, 0, 0, 0, 1⟩, ⟨0, 0, 0⟩, ⟨[0], [1], []⟩⟩,
    ⟨2, ⟨1, 0, 0, 0, 1, 0, 0, 0, 1⟩, ⟨0, 0, 0⟩, ⟨[0], [1], []⟩⟩,
    ⟨3, ⟨1, 0, 0, 0, 1, 0, 0, 0, 1⟩, ⟨0, 0, 0⟩, ⟨[0], [1], []⟩⟩]

/-- Class 39. -/
def k39 : Cls where
  gens := ⟨⟨0, -1, 1, 1, -1, 0, 0, -1, 0⟩, ⟨1, 0, 0, 0, 0, 1, 0, 1, 0⟩, ⟨1, 0, 0, 0, 1, 0, 0, 0, 1⟩⟩
  words := [[], [0], [1], [0, 0], [0, 1], [1, 0], [0, 0, 0], [0, 0, 1]]
  rels := [([2], []), ([0, 1, 0], [1])]
  terms := [⟨1, ⟨⟨0, 0, 0⟩, ⟨0, 0, 0⟩, ⟨1, 0, 0⟩⟩, [⟨1, 0, 0⟩, ⟨0, 0, 0⟩]⟩,
    ⟨1, ⟨⟨0, 0, 0⟩, ⟨0, 0, 0⟩, ⟨0, 1, 0⟩⟩, [⟨0, 1, 0⟩, ⟨0, 0, 0⟩]⟩,
    ⟨1, ⟨⟨0, 0, 0⟩, ⟨0, 0, 0⟩, ⟨0, 0, 1⟩⟩, [⟨0, 0, 1⟩, ⟨0, 0, 0⟩]⟩,
    ⟨1, ⟨⟨0, 0, 0⟩, ⟨1, 0, 0⟩, ⟨0, 0, 0⟩⟩, [⟨0, 0, 0⟩, ⟨-1, 0, 0⟩]⟩,
    ⟨1, ⟨⟨0, 0, 0⟩, ⟨1, 0, 1⟩, ⟨0, 0, 0⟩⟩, [⟨0, 0, 0⟩, ⟨1, 1, 0⟩]⟩,
    ⟨2, ⟨⟨1, 0, 0⟩, ⟨-1, 0, -2⟩, ⟨0, 0, 0⟩⟩, [⟨0, 0, 0⟩, ⟨1, 1, 1⟩]⟩]
  s := ⟨⟨0, -2, 2, 0, 0, 1, 0, 0, 1⟩, ⟨0, 2, 0, 0, 1, 0, 0, -1, 0⟩, ⟨0, 0, 0, 0, 0, 0, 0, 0, 0⟩⟩
  n := 2
  m := 2
  reps := [⟨⟨0, 0, 0⟩, ⟨0, 0, 0⟩, ⟨0, 0, 0⟩⟩, ⟨⟨1, 0, 0⟩, ⟨-1, 0, -2⟩, ⟨0, 0, 0⟩⟩]
  certs := [
    ⟨0, ⟨1, 0, 0, 0, 1, 0, 0, 0, 1⟩, ⟨0, 0, 0⟩, ⟨[0], [1], []⟩⟩,
    ⟨1, ⟨1, 0, 0, 0, 1, 0, 0, 0, 1⟩, ⟨0, 0, 0⟩, ⟨[0], [1], []⟩⟩]

/-- Class 40. -/
def k40 : Cls where
  gens := ⟨⟨0, 0, 1, 1, 0, 0, -1, -1, -1⟩, ⟨1, 0, 0, 0, 0, 1, 0, 1, 0⟩, ⟨1, 0, 0, 0, 1, 0, 0, 0, 1⟩⟩
  words := [[], [0], [1], [0, 0], [0, 1], [1, 0], [0, 0, 0], [0, 0, 1]]
  rels := [([2], []), ([1, 1], []), ([0, 1, 0], [1])]
  terms := [⟨1, ⟨⟨0, 0, 0⟩, ⟨0, 0, 0⟩, ⟨1, 0, 0⟩⟩, [⟨1, 0, 0⟩, ⟨0, 0, 0⟩, ⟨0, 0, 0⟩]⟩,
    ⟨1, ⟨⟨0, 0, 0⟩, ⟨0, 0, 0⟩, ⟨0, 1, 0⟩⟩, [⟨0, 1, 0⟩, ⟨0, 0, 0⟩, ⟨0, 0, 0⟩]⟩,
    ⟨1, ⟨⟨0, 0, 0⟩, ⟨0, 0, 0⟩, ⟨0, 0, 1⟩⟩, [⟨0, 0, 1⟩, ⟨0, 0, 0⟩, ⟨0, 0, 0⟩]⟩,
    ⟨1, ⟨⟨0, 0, 0⟩, ⟨0, 1, 0⟩, ⟨0, 0, 0⟩⟩, [⟨0, 0, 0⟩, ⟨0, 1, 0⟩, ⟨0, 0, 0⟩]⟩,
    ⟨1, ⟨⟨0, 0, 0⟩, ⟨1, 0, 0⟩, ⟨0, 0, 0⟩⟩, [⟨0, 0, 0⟩, ⟨0, 0, 0⟩, ⟨-1, 0, 0⟩]⟩,
    ⟨2, ⟨⟨0, 0, 0⟩, ⟨1, -1, 1⟩, ⟨0, 0, 0⟩⟩, [⟨0, 0, 0⟩, ⟨1, 0, 0⟩, ⟨2, 0, 0⟩]⟩]
  s := ⟨⟨2, -1, 1, 2, 3, 1, -2, -1, 1⟩, ⟨0, 0, 0, 0, 0, 0, 0, 0, 0⟩, ⟨0, 0, 0, 0, 0, 0, 0, 0, 0⟩⟩
  n := 4
  m := 4
  reps := [⟨⟨0, 0, 0⟩, ⟨0, 0, 0⟩, ⟨0, 0, 0⟩⟩, ⟨⟨0, 0, 0⟩, ⟨2, -2, 2⟩, ⟨0, 0, 0⟩⟩]
  certs := [
    ⟨0, ⟨1, 0, 0, 0, 1, 0, 0, 0, 1⟩, ⟨0, 0, 0⟩, ⟨[0], [1], []⟩⟩,
    ⟨1, ⟨1, 0, 0, 0, 1, 0, 0, 0, 1⟩, ⟨0, 0, 0⟩, ⟨[0], [1], []⟩⟩]

/-- Class 41. -/
def k41 : Cls where
  gens := ⟨⟨1, 0, 0, 0, 0, -1, 0, 1, 0⟩, ⟨-1, 0, 0, 0, -1, 0, 0, 0, 1⟩, ⟨1, 0, 0, 0, 1, 0, 0, 0, 1⟩⟩
  words := [[], [0], [1], [0, 0], [0, 1], [1, 0], [0, 0, 0], [0, 0, 1]]
  rels := [([2], []), ([0, 1, 0], [1]), ([0, 0, 0, 0], [])]
  terms := [⟨1, ⟨⟨0, 0, 0⟩, ⟨0, 0, 0⟩, ⟨1, 0, 0⟩⟩, [⟨1, 0, 0⟩, ⟨0, 0, 0⟩, ⟨0, 0, 0⟩]⟩,
    ⟨1, ⟨⟨0, 0, 0⟩, ⟨0, 0, 0⟩, ⟨0, 1, 0⟩⟩, [⟨0, 1, 0⟩, ⟨0, 0, 0⟩, ⟨0, 0, 0⟩]⟩,
    ⟨1, ⟨⟨0, 0, 0⟩, ⟨0, 0, 0⟩, ⟨0, 0, 1⟩⟩, [⟨0, 0, 1⟩, ⟨0, 0, 0⟩, ⟨0, 0, 0⟩]⟩,
    ⟨1, ⟨⟨0, 0, 0⟩, ⟨0, 1, 0⟩, ⟨0, 0, 0⟩⟩, [⟨0, 0, 0⟩, ⟨0, -1, 0⟩, ⟨0, 0, 0⟩]⟩,
    ⟨2, ⟨⟨0, 0, 0⟩, ⟨0, -1, 1⟩, ⟨0, 0, 0⟩⟩, [⟨0, 0, 0⟩, ⟨0, -1, -1⟩, ⟨0, 0, 0⟩]⟩,
    ⟨4, ⟨⟨1, 0, 0⟩, ⟨0, 0, 0⟩, ⟨0, 0, 0⟩⟩, [⟨0, 0, 0⟩, ⟨0, 0, 0⟩, ⟨1, 0, 0⟩]⟩]
  s := ⟨⟨0, 0, 0, 0, 2, -2, 0, 2, 2⟩, ⟨2, 0, 0, 0, 0, 0, 0, 0, 0⟩, ⟨0, 0, 0, 0, 0, 0, 0, 0, 0⟩⟩
  n := 4
  m := 4
  reps := [⟨⟨0, 0, 0⟩, ⟨0, 0, 0⟩, ⟨0, 0, 0⟩⟩, ⟨⟨1, 0, 0⟩, ⟨0, 0, 0⟩, ⟨0, 0, 0⟩⟩, ⟨⟨2, 0, 0⟩, ⟨0, 0, 0⟩, ⟨0, 0, 0⟩⟩, ⟨⟨3, 0, 0⟩, ⟨0, 0, 0⟩, ⟨0, 0, 0⟩⟩, ⟨⟨0, 0, 0⟩, ⟨0, -2, 2⟩, ⟨0, 0, 0⟩⟩, ⟨⟨1, 0, 0⟩, ⟨0, -2, 2⟩, ⟨0, 0, 0⟩⟩, ⟨⟨2, 0, 0⟩, ⟨0, -2, 2⟩, ⟨0, 0, 0⟩⟩, ⟨⟨3, 0, 0⟩, ⟨0, -2, 2⟩, ⟨0, 0, 0⟩⟩]
  certs := [
    ⟨0, ⟨1, 0, 0, 0, 1, 0, 0, 0, 1⟩, ⟨0, 0, 0⟩, ⟨[0], [1], []⟩⟩,
    ⟨1, ⟨1, 0, 0, 0, 1, 0, 0, 0, 1⟩, ⟨0, 0, 0⟩, ⟨[0], [1], []⟩⟩,
    ⟨2, ⟨1, 0, 0, 0, 1, 0, 0, 0, 1⟩, ⟨0, 0, 0⟩, ⟨[0], [1], []⟩⟩,
    ⟨3, ⟨1, 0, 0, 0, 1, 0, 0, 0, 1⟩, ⟨0, 0, 0⟩, ⟨[0], [1], []⟩⟩,
    ⟨4, ⟨1, 0, 0, 0, 1, 0, 0, 0, 1⟩, ⟨0, 0, 0⟩, ⟨[0], [1], []⟩⟩,
    ⟨5, ⟨1, 0, 0, 0, 1, 0, 0, 0, 1⟩, ⟨0, 0, 0⟩, ⟨[0], [1], []⟩⟩,
    ⟨6, ⟨1, 0, 0, 0, 1, 0, 0, 0, 1⟩, ⟨0, 0, 0⟩, ⟨[0], [1], []⟩⟩,
    ⟨7, ⟨1, 0, 0, 0, 1, 0, 0, 0, 1⟩, ⟨0, 0, 0⟩, ⟨[0], [1], []⟩⟩]

/-- Class 42. -/
def k42 : Cls where
  gens := ⟨⟨0, -1, 1, 0, 0, 1, -1, 0, 1⟩, ⟨-1, 0, 0, 0, 0, -1, 0, -1, 0⟩, ⟨1, 0, 0, 0, 1, 0, 0, 0, 1⟩⟩
  words := [[], [0], [1], [0, 0], [0, 1], [1, 0], [0, 0, 0], [0, 0, 1]]
  rels := [([2], []), ([0, 1, 0], [1]), ([0, 0, 0, 0], [])]
  terms := [⟨1, ⟨⟨0, 0, 0⟩, ⟨0, 0, 0⟩, ⟨1, 0, 0⟩⟩, [⟨1, 0, 0⟩, ⟨0, 0, 0⟩, ⟨0, 0, 0⟩]⟩,
    ⟨1, ⟨⟨0, 0, 0⟩, ⟨0, 0, 0⟩, ⟨0, 1, 0⟩⟩, [⟨0, 1, 0⟩, ⟨0, 0, 0⟩, ⟨0, 0, 0⟩]⟩,
    ⟨1, ⟨⟨0, 0, 0⟩, ⟨0, 0, 0⟩, ⟨0, 0, 1⟩⟩, [⟨0, 0, 1⟩, ⟨0, 0, 0⟩, ⟨0, 0, 0⟩]⟩,
    ⟨1, ⟨⟨0, 0, 0⟩, ⟨1, 0, 0⟩, ⟨0, 0, 0⟩⟩, [⟨0, 0, 0⟩, ⟨-1, 0, 0⟩, ⟨0, 0, 0⟩]⟩,
    ⟨1, ⟨⟨0, 0, 0⟩, ⟨-1, 1, 0⟩, ⟨0, 0, 0⟩⟩, [⟨0, 0, 0⟩, ⟨0, -1, 0⟩, ⟨0, 0, 0⟩]⟩,
    ⟨2, ⟨⟨1, 0, 0⟩, ⟨1, 0, 0⟩, ⟨0, 0, 0⟩⟩, [⟨0, 0, 0⟩, ⟨0, 0, 0⟩, ⟨0, -1, 0⟩]⟩]
  s := ⟨⟨0, 0, 2, 0, 1, 0, 0, -1, 0⟩, ⟨0, 0, 0, 0, 0, 1, 0, 0, 1⟩, ⟨0, 0, 0, 0, 0, 0, 0, 0, 0⟩⟩
  n := 2
  m := 2
  reps := [⟨⟨0, 0, 0⟩, ⟨0, 0, 0⟩, ⟨0, 0, 0⟩⟩, ⟨⟨1, 0, 0⟩, ⟨1, 0, 0⟩, ⟨0, 0, 0⟩⟩]
  certs := [
    ⟨0, ⟨1, 0, 0, 0, 1, 0, 0, 0, 1⟩, ⟨0, 0, 0⟩, ⟨[0], [1], []⟩⟩,
    ⟨1, ⟨1, 0, 0, 0, 1, 0, 0, 0, 1⟩, ⟨0, 0, 0⟩, ⟨[0], [1], []⟩⟩]

/-- Class 43. -/
def k43 : Cls where
  gens := ⟨⟨0, -1, 0, 0, 0, -1, 1, 0, 0⟩, ⟨0, -1, 0, 0, 0, 1, -1, 0, 0⟩, ⟨1, 0, 0, 0, 1, 0, 0, 0, 1⟩⟩
  words := [[], [0], [1], [0, 0], [0, 1], [1, 0], [1, 1], [0, 0, 1], [0, 1, 0], [0, 1, 1], [0, 0, 1, 0], [0, 0, 1, 1]]
  rels := [([2], []), ([0, 0, 0], []), ([0, 1, 1, 0], [1])]
  terms := [⟨1, ⟨⟨0, 0, 0⟩, ⟨0, 0, 0⟩, ⟨1, 0, 0⟩⟩, [⟨1, 0, 0⟩, ⟨0, 0, 0⟩, ⟨0, 0, 0⟩]⟩,
    ⟨1, ⟨⟨0, 0, 0⟩, ⟨0, 0, 0⟩, ⟨0, 1, 0⟩⟩, [⟨0, 1, 0⟩, ⟨0, 0, 0⟩, ⟨0, 0, 0⟩]⟩,
    ⟨1, ⟨⟨0, 0, 0⟩, ⟨0, 0, 0⟩, ⟨0, 0, 1⟩⟩, [⟨0, 0, 1⟩, ⟨0, 0, 0⟩, ⟨0, 0, 0⟩]⟩,
    ⟨1, ⟨⟨1, 0, 0⟩, ⟨0, 0, 0⟩, ⟨0, 0, 0⟩⟩, [⟨0, 0, 0⟩, ⟨1, 0, 0⟩, ⟨0, 0, 0⟩]⟩,
    ⟨1, ⟨⟨0, 0, 0⟩, ⟨0, 1, 0⟩, ⟨0, 0, 0⟩⟩, [⟨0, 0, 0⟩, ⟨2, 0, 0⟩, ⟨-1, 0, 0⟩]⟩,
    ⟨2, ⟨⟨0, 0, 0⟩, ⟨1, -1, 0⟩, ⟨0, 0, 0⟩⟩, [⟨0, 0, 0⟩, ⟨2, 0, 0⟩, ⟨-1, 1, 0⟩]⟩]
  s := ⟨⟨0, 0, -1, 0, 2, -1, 0, 0, 1⟩, ⟨0, 0, 1, 0, 0, -1, 0, 0, 1⟩, ⟨0, 0, 0, 0, 0, 0, 0, 0, 0⟩⟩
  n := 2
  m := 2
  reps := [⟨⟨0, 0, 0⟩, ⟨0, 0, 0⟩, ⟨0, 0, 0⟩⟩, ⟨⟨0, 0, 0⟩, ⟨1, -1, 0⟩, ⟨0, 0, 0⟩⟩]
  certs := [
    ⟨0, ⟨1, 0, 0, 0, 1, 0, 0, 0, 1⟩, ⟨0, 0, 0⟩, ⟨[0], [1], []⟩⟩,
    ⟨1, ⟨1, 0, 0, 0, 1, 0, 0, 0, 1⟩, ⟨0, 0, 0⟩, ⟨[0], [1], []⟩⟩]

/-- Class 44. -/
def k44 : Cls where
  gens := ⟨⟨0, 0, 1, 1, 0, 0, 0, 1, 0⟩, ⟨-1, 0, 1, -1, 1, 0, -1, 0, 0⟩, ⟨1, 0, 0, 0, 1, 0, 0, 0, 1⟩⟩
  words := [[], [0], [1], [0, 0], [0, 1], [1, 0], [1, 1], [0, 0, 1], [0, 1, 1], [1, 0, 0], [1, 1, 0], [0, 1, 1, 0]]
  rels := [([2], []), ([1, 1, 1], []), ([1, 0, 1], [0, 0])]
  terms := [⟨1, ⟨⟨0, 0, 0⟩, ⟨0, 0, 0⟩, ⟨1, 0, 0⟩⟩, [⟨1, 0, 0⟩, ⟨0, 0, 0⟩, ⟨0, 0, 0⟩]⟩,
    ⟨1, ⟨⟨0, 0, 0⟩, ⟨0, 0, 0⟩, ⟨0, 1, 0⟩⟩, [⟨0, 1, 0⟩, ⟨0, 0, 0⟩, ⟨0, 0, 0⟩]⟩,
    ⟨1, ⟨⟨0, 0, 0⟩, ⟨0, 0, 0⟩, ⟨0, 0, 1⟩⟩, [⟨0, 0, 1⟩, ⟨0, 0, 0⟩, ⟨0, 0, 0⟩]⟩,
    ⟨1, ⟨⟨0, 0, 0⟩, ⟨1, 0, 0⟩, ⟨0, 0, 0⟩⟩, [⟨0, 0, 0⟩, ⟨0, -1, 0⟩, ⟨0, 0, 0⟩]⟩,
    ⟨1, ⟨⟨1, 0, 0⟩, ⟨0, 0, 0⟩, ⟨0, 0, 0⟩⟩, [⟨0, 0, 0⟩, ⟨0, 0, 0⟩, ⟨0, 0, -1⟩]⟩,
    ⟨2, ⟨⟨0, 0, 0⟩, ⟨-1, 0, 1⟩, ⟨0, 0, 0⟩⟩, [⟨0, 0, 0⟩, ⟨0, -1, 0⟩, ⟨-1, 0, 2⟩]⟩]
  s := ⟨⟨0, 0, 0, 0, 2, 0, 0, 2, 2⟩, ⟨0, 2, 0, 0, 2, 0, 0, 2, 0⟩, ⟨0, 0, 0, 0, 0, 0, 0, 0, 0⟩⟩
  n := 2
  m := 2
  reps := [⟨⟨0, 0, 0⟩, ⟨0, 0, 0⟩, ⟨0, 0, 0⟩⟩, ⟨⟨0, 0, 0⟩, ⟨-1, 0, 1⟩, ⟨0, 0, 0⟩⟩]
  certs := [
    ⟨0, ⟨1, 0, 0, 0, 1, 0, 0, 0, 1⟩, ⟨0, 0, 0⟩, ⟨[0], [1], []⟩⟩,
    ⟨1, ⟨1, 0, 0, 0, 1, 0, 0, 0, 1⟩, ⟨0, 0, 0⟩, ⟨[0], [1], []⟩⟩]

/-- Class 45. -/
def k45 : Cls where
  gens := ⟨⟨0, 0, 1, 1, 0, 0, 0, 1, 0⟩, ⟨-1, -1, -1, 0, 1, 0, 1, 0, 0⟩, ⟨1, 0, 0, 0, 1, 0, 0, 0, 1⟩⟩
  words := [[], [0], [1], [0, 0], [0, 1], [1, 0], [1, 1], [0, 0, 1], [0, 1, 0], [0, 1, 1], [0, 0, 1, 0], [0, 0, 1, 1]]
  rels := [([2], []), ([0, 0, 0], []), ([1, 1, 1], []), ([0, 1, 1, 0], [1])]
  terms := [⟨1, ⟨⟨0, 0, 0⟩, ⟨0, 0, 0⟩, ⟨1, 0, 0⟩⟩, [⟨1, 0, 0⟩, ⟨0, 0, 0⟩, ⟨0, 0, 0⟩, ⟨0, 0, 0⟩]⟩,
    ⟨1, ⟨⟨0, 0, 0⟩, ⟨0, 0, 0⟩, ⟨0, 1, 0⟩⟩, [⟨0, 1, 0⟩, ⟨0, 0, 0⟩, ⟨0, 0, 0⟩, ⟨0, 0, 0⟩]⟩,
    ⟨1, ⟨⟨0, 0, 0⟩, ⟨0, 0, 0⟩, ⟨0, 0, 1⟩⟩, [⟨0, 0, 1⟩, ⟨0, 0, 0⟩, ⟨0, 0, 0⟩, ⟨0, 0, 0⟩]⟩,
    ⟨1, ⟨⟨1, 0, 0⟩, ⟨0, 0, 0⟩, ⟨0, 0, 0⟩⟩, [⟨0, 0, 0⟩, ⟨1, 0, 0⟩, ⟨0, 0, 0⟩, ⟨0, 0, 0⟩]⟩,
    ⟨1, ⟨⟨0, 0, 0⟩, ⟨0, 1, 0⟩, ⟨0, 0, 0⟩⟩, [⟨0, 0, 0⟩, ⟨0, 0, 0⟩, ⟨-1, 0, 0⟩, ⟨0, 0, 0⟩]⟩,
    ⟨1, ⟨⟨0, 0, 0⟩, ⟨0, 0, 1⟩, ⟨0, 0, 0⟩⟩, [⟨0, 0, 0⟩, ⟨0, 0, 0⟩, ⟨0, 0, 0⟩, ⟨1, 0, 0⟩]⟩]
  s := ⟨⟨0, -2, -1, 0, 2, -1, 0, 2, 3⟩, ⟨1, 0, 0, 1, 0, 0, 1, 0, 0⟩, ⟨0, 0, 0, 0, 0, 0, 0, 0, 0⟩⟩
  n := 4
  m := 4
  reps := [⟨⟨0, 0, 0⟩, ⟨0, 0, 0⟩, ⟨0, 0, 0⟩⟩]
  certs := [
    ⟨0, ⟨1, 0, 0, 0, 1, 0, 0, 0, 1⟩, ⟨0, 0, 0⟩, ⟨[0], [1], []⟩⟩]

/-- Class 46. -/
def k46 : Cls where
  gens := ⟨⟨0, -1, 0, 0, 0, 1, 1, 0, 0⟩, ⟨-1, 0, 0, 0, 0, 1, 0, 1, 0⟩, ⟨1, 0, 0, 0, 1, 0, 0, 0, 1⟩⟩
  words := [[], [0], [1], [0, 0], [0, 1], [1, 0], [0, 0, 0], [0, 0, 1], [1, 0, 0], [1, 0, 1], [0, 0, 0, 0], [0, 0, 0, 1]]
  rels := [([2], []), ([1, 1], []), ([1, 0, 1, 0], [])]
  terms := [⟨1, ⟨⟨0, 0, 0⟩, ⟨0, 0, 0⟩, ⟨1, 0, 0⟩⟩, [⟨1, 0, 0⟩, ⟨0, 0, 0⟩, ⟨0, 0, 0⟩]⟩,
    ⟨1, ⟨⟨0, 0, 0⟩, ⟨0, 0, 0⟩, ⟨0, 1, 0⟩⟩, [⟨0, 1, 0⟩, ⟨0, 0, 0⟩, ⟨0, 0, 0⟩]⟩,
    ⟨1, ⟨⟨0, 0, 0⟩, ⟨0, 0, 0⟩, ⟨0, 0, 1⟩⟩, [⟨0, 0, 1⟩, ⟨0, 0, 0⟩, ⟨0, 0, 0⟩]⟩,
    ⟨1, ⟨⟨0, 0, 0⟩, ⟨0, 1, 0⟩, ⟨0, 0, 0⟩⟩, [⟨0, 0, 0⟩, ⟨0, 1, 0⟩, ⟨0, 0, 0⟩]⟩,
    ⟨1, ⟨⟨0, 0, 0⟩, ⟨1, 0, 0⟩, ⟨0, 0, 0⟩⟩, [⟨0, 0, 0⟩, ⟨0, -1, 0⟩, ⟨1, 0, 0⟩]⟩,
    ⟨2, ⟨⟨0, 0, 0⟩, ⟨1, -1, 1⟩, ⟨0, 0, 0⟩⟩, [⟨0, 0, 0⟩, ⟨0, 0, 0⟩, ⟨0, 0, 1⟩]⟩]
  s := ⟨⟨1, -1, -1, 1, 1, 1, 1, -1, 1⟩, ⟨0, 0, 0, 0, 0, 0, 0, 0, 0⟩, ⟨0, 0, 0, 0, 0, 0, 0, 0, 0⟩⟩
  n := 2
  m := 2
  reps := [⟨⟨0, 0, 0⟩, ⟨0, 0, 0⟩, ⟨0, 0, 0⟩⟩, ⟨⟨0, 0, 0⟩, ⟨1, -1, 1⟩, ⟨0, 0, 0⟩⟩]
  certs := [
    ⟨0, ⟨1, 0, 0, 0, 1, 0, 0, 0, 1⟩, ⟨0, 0, 0⟩, ⟨[0], [1], []⟩⟩,
    ⟨1, ⟨1, 0, 0, 0, 1, 0, 0, 0, 1⟩, ⟨0, 0, 0⟩, ⟨[0], [1], []⟩⟩]

/-- Class 47. -/
def k47 : Cls where
  gens := ⟨⟨0, 0, 1, 0, -1, 0, -1, 0, 1⟩, ⟨0, 0, -1, 0, -1, 0, -1, 0, 0⟩, ⟨1, 0, 0, 0, 1, 0, 0, 0, 1⟩⟩
  words := [[], [0], [1], [0, 0], [0, 1], [1, 0], [0, 0, 0], [0, 0, 1], [1, 0, 0], [1, 0, 1], [0, 0, 0, 0], [0, 0, 0, 1]]
  rels := [([2], []), ([1, 1], []), ([1, 0, 1, 0], [])]
  terms := [⟨1, ⟨⟨0, 0, 0⟩, ⟨0, 0, 0⟩, ⟨1, 0, 0⟩⟩, [⟨1, 0, 0⟩, ⟨0, 0, 0⟩, ⟨0, 0, 0⟩]⟩,
    ⟨1, ⟨⟨0, 0, 0⟩, ⟨0, 0, 0⟩, ⟨0, 1, 0⟩⟩, [⟨0, 1, 0⟩, ⟨0, 0, 0⟩, ⟨0, 0, 0⟩]⟩,
    ⟨1, ⟨⟨0, 0, 0⟩, ⟨0, 0, 0⟩, ⟨0, 0, 1⟩⟩, [⟨0, 0, 1⟩, ⟨0, 0, 0⟩, ⟨0, 0, 0⟩]⟩,
    ⟨1, ⟨⟨0, 0, 0⟩, ⟨1, 0, 0⟩, ⟨0, 0, 0⟩⟩, [⟨0, 0, 0⟩, ⟨1, 0, 0⟩, ⟨0, 0, 0⟩]⟩,
    ⟨1, ⟨⟨0, 0, 0⟩, ⟨1, 0, 1⟩, ⟨0, 0, 0⟩⟩, [⟨0, 0, 0⟩, ⟨-2, 0, 0⟩, ⟨1, 0, 0⟩]⟩,
    ⟨2, ⟨⟨0, 0, 0⟩, ⟨0, 1, 0⟩, ⟨0, 0, 0⟩⟩, [⟨0, 0, 0⟩, ⟨0, 0, 0⟩, ⟨0, 1, 0⟩]⟩]
  s := ⟨⟨0, 0, 2, 0, 1, 0, -2, 0, 2⟩, ⟨0, 0, 0, 0, 0, 0, 0, 0, 0⟩, ⟨0, 0, 0, 0, 0, 0, 0, 0, 0⟩⟩
  n := 2
  m := 2
  reps := [⟨⟨0, 0, 0⟩, ⟨0, 0, 0⟩, ⟨0, 0, 0⟩⟩, ⟨⟨0, 0, 0⟩, ⟨0, 1, 0⟩, ⟨0, 0, 0⟩⟩]
  certs := [
    ⟨0, ⟨1, 0, 0, 0, 1, 0, 0, 0, 1⟩, ⟨0, 0, 0⟩, ⟨[0], [1], []⟩⟩,
    ⟨1, ⟨1, 0, 0, 0, 1, 0, 0, 0, 1⟩, ⟨0, 0, 0⟩, ⟨[0], [1], []⟩⟩]

/-- Class 48. -/
def k48 : Cls where
  gens := ⟨⟨-1, 0, 0, 0, 0, -1, 0, 1, 0⟩, ⟨1, 0, 0, 0, 0, -1, 0, 1, 0⟩, ⟨-1, 0, 0, 0, -1, 0, 0, 0, 1⟩⟩
  words := [[], [0], [1], [2], [0, 0], [0, 1], [0, 2], [1, 2], [2, 0], [2, 1], [0, 0, 0], [0, 0, 1], [0, 0, 2], [0, 1, 2], [0, 2, 1], [0, 0, 0, 1]]
  rels := [([0, 2, 0], [2]), ([0, 0, 1, 1], [])]
  terms := [⟨1, ⟨⟨0, 1, 0⟩, ⟨0, 0, 0⟩, ⟨0, 0, 0⟩⟩, [⟨0, 1, 0⟩, ⟨0, 0, 0⟩]⟩,
    ⟨1, ⟨⟨0, 0, 0⟩, ⟨0, 1, 0⟩, ⟨0, 0, 0⟩⟩, [⟨0, 1, 0⟩, ⟨0, -1, 0⟩]⟩,
    ⟨2, ⟨⟨0, 1, 0⟩, ⟨0, 1, 0⟩, ⟨0, 0, 1⟩⟩, [⟨0, -1, -1⟩, ⟨0, 0, 0⟩]⟩,
    ⟨2, ⟨⟨0, 0, 0⟩, ⟨1, 0, 0⟩, ⟨0, 0, 0⟩⟩, [⟨0, 0, 0⟩, ⟨1, 0, 0⟩]⟩,
    ⟨2, ⟨⟨1, 0, 0⟩, ⟨0, 0, 0⟩, ⟨0, 0, 0⟩⟩, [⟨1, 0, 0⟩, ⟨0, 0, 0⟩]⟩,
    ⟨2, ⟨⟨0, 0, 0⟩, ⟨0, 1, 1⟩, ⟨0, 0, 0⟩⟩, [⟨0, 0, 0⟩, ⟨0, 1, -1⟩]⟩]
  s := ⟨⟨0, 0, 0, 0, 0, 0, 0, 0, 2⟩, ⟨0, 0, 0, 0, 0, 0, 0, 0, 0⟩, ⟨1, 0, 0, 0, 1, 0, 0, 1, 0⟩⟩
  n := 2
  m := 2
  reps := [⟨⟨0, 0, 0⟩, ⟨0, 0, 0⟩, ⟨0, 0, 0⟩⟩, ⟨⟨0, 0, 0⟩, ⟨0, 1, 1⟩, ⟨0, 0, 0⟩⟩, ⟨⟨1, 0, 0⟩, ⟨0, 0, 0⟩, ⟨0, 0, 0⟩⟩, ⟨⟨1, 0, 0⟩, ⟨0, 1, 1⟩, ⟨0, 0, 0⟩⟩, ⟨⟨0, 0, 0⟩, ⟨1, 0, 0⟩, ⟨0, 0, 0⟩⟩, ⟨⟨0, 0, 0⟩, ⟨1, 1, 1⟩, ⟨0, 0, 0⟩⟩, ⟨⟨1, 0, 0⟩, ⟨1, 0, 0⟩, ⟨0, 0, 0⟩⟩, ⟨⟨1, 0, 0⟩, ⟨1, 1, 1⟩, ⟨0, 0, 0⟩⟩, ⟨⟨0, 1, 0⟩, ⟨0, 1, 0⟩, ⟨0, 0, 1⟩⟩, ⟨⟨0, 1, 0⟩, ⟨0, 2, 1⟩, ⟨0, 0, 1⟩⟩, ⟨⟨1, 1, 0⟩, ⟨0, 1, 0⟩, ⟨0, 0, 1⟩⟩, ⟨⟨1, 1, 0⟩, ⟨0, 2, 1⟩, ⟨0, 0, 1⟩⟩, ⟨⟨0, 1, 0⟩, ⟨1, 1, 0⟩, ⟨0, 0, 1⟩⟩, ⟨⟨0, 1, 0⟩, ⟨1, 2, 1⟩, ⟨0, 0, 1⟩⟩, ⟨⟨1, 1, 0⟩, ⟨1, 1, 0⟩, ⟨0, 0, 1⟩⟩, ⟨⟨1, 1, 0⟩, ⟨1, 2, 1⟩, ⟨0, 0, 1⟩⟩]
  certs := [
    ⟨0, ⟨1, 0, 0, 0, 1, 0, 0, 0, 1⟩, ⟨0, 0, 0⟩, ⟨[0], [1], [2]⟩⟩,
    ⟨1, ⟨1, 0, 0, 0, 1, 0, 0, 0, 1⟩, ⟨0, 0, 0⟩, ⟨[0], [1], [2]⟩⟩,
    ⟨2, ⟨1, 0, 0, 0, 1, 0, 0, 0, 1⟩, ⟨0, 0, 0⟩, ⟨[0], [1], [2]⟩⟩,
    ⟨3, ⟨1, 0, 0, 0, 1, 0, 0, 0, 1⟩, ⟨0, 0, 0⟩, ⟨[0], [1], [2]⟩⟩,
    ⟨4, ⟨1, 0, 0, 0, 1, 0, 0, 0, 1⟩, ⟨0, 0, 0⟩, ⟨[0], [1], [2]⟩⟩,
    ⟨5, ⟨1, 0, 0, 0, 1, 0, 0, 0, 1⟩, ⟨0, 0, 0⟩, ⟨[0], [1], [2]⟩⟩,
    ⟨6, ⟨1, 0, 0, 0, 1, 0, 0, 0, 1⟩, ⟨0, 0, 0⟩, ⟨[0], [1], [2]⟩⟩,
    ⟨7, ⟨1, 0, 0, 0, 1, 0, 0, 0, 1⟩, ⟨0, 0, 0⟩, ⟨[0], [1], [2]⟩⟩,
    ⟨8, ⟨1, 0, 0, 0, 1, 0, 0, 0, 1⟩, ⟨0, 0, 0⟩, ⟨[0], [1], [2]⟩⟩,
    ⟨9, ⟨1, 0, 0, 0, 1, 0, 0, 0, 1⟩, ⟨0, 0, 0⟩, ⟨[0], [1], [2]⟩⟩,
    ⟨10, ⟨1, 0, 0, 0, 1, 0, 0, 0, 1⟩, ⟨0, 0, 0⟩, ⟨[0], [1], [2]⟩⟩,
    ⟨11, ⟨1, 0, 0, 0, 1, 0, 0, 0, 1⟩, ⟨0, 0, 0⟩, ⟨[0], [1], [2]⟩⟩,
    ⟨12, ⟨1, 0, 0, 0, 1, 0, 0, 0, 1⟩, ⟨0, 0, 0⟩, ⟨[0], [1], [2]⟩⟩,
    ⟨13, ⟨1, 0, 0, 0, 1, 0, 0, 0, 1⟩, ⟨0, 0, 0⟩, ⟨[0], [1], [2]⟩⟩,
    ⟨14, ⟨1, 0, 0, 0, 1, 0, 0, 0, 1⟩, ⟨0, 0, 0⟩, ⟨[0], [1], [2]⟩⟩,
    ⟨15, ⟨1, 0, 0, 0, 1, 0, 0, 0, 1⟩, ⟨0, 0, 0⟩, ⟨[0], [1], [2]⟩⟩]

/-- Class 49. -/
def k49 : Cls where
  gens := ⟨⟨0, -1, 1, 0, 0, 1, -1, 0, 1⟩, ⟨0, -1, 1, 1, -1, 0, 0, -1, 0⟩, ⟨-1, 0, 0, 0, 0, -1, 0, -1, 0⟩⟩
  words := [[], [0], [1], [2], [0, 0], [0, 1], [0, 2], [1, 2], [2, 0], [2, 1], [0, 0, 0], [0, 0, 1], [0, 0, 2], [0, 1, 2], [0, 2, 1], [0, 0, 0, 1]]
  rels := [([2, 2], []), ([1, 2, 1], [2]), ([0, 0, 1, 1], [])]
  terms := [⟨1, ⟨⟨0, 0, 0⟩, ⟨0, 0, 0⟩, ⟨0, 1, 0⟩⟩, [⟨0, 1, 0⟩, ⟨0, 0, 0⟩, ⟨0, 0, 0⟩]⟩,
    ⟨1, ⟨⟨0, 0, 0⟩, ⟨1, 0, 0⟩, ⟨0, 0, 0⟩⟩, [⟨0, 1, 0⟩, ⟨1, 0, 0⟩, ⟨0, 0, 0⟩]⟩,
    ⟨1, ⟨⟨0, 0, 1⟩, ⟨0, 0, 0⟩, ⟨0, 0, 0⟩⟩, [⟨0, 1, 0⟩, ⟨1, 0, 0⟩, ⟨1, 0, 0⟩]⟩,
    ⟨1, ⟨⟨0, 0, 0⟩, ⟨1, 1, 0⟩, ⟨0, 0, 0⟩⟩, [⟨0, 0, 0⟩, ⟨0, 0, 0⟩, ⟨1, -1, 0⟩]⟩,
    ⟨2, ⟨⟨0, 0, 0⟩, ⟨0, 1, 1⟩, ⟨0, 0, 0⟩⟩, [⟨0, 3, 0⟩, ⟨1, 1, 0⟩, ⟨0, 0, 0⟩]⟩,
    ⟨2, ⟨⟨0, 0, 1⟩, ⟨1, 0, 0⟩, ⟨1, 0, 0⟩⟩, [⟨0, -2, 0⟩, ⟨-2, 0, 0⟩, ⟨-3, 1, 1⟩]⟩]
  s := ⟨⟨2, -2, 0, 0, 1, 0, 0, -1, 0⟩, ⟨0, 0, 0, 0, 0, 0, 0, 0, 0⟩, ⟨0, 0, 0, 0, 0, 1, 0, 0, 1⟩⟩
  n := 2
  m := 2
  reps := [⟨⟨0, 0, 0⟩, ⟨0, 0, 0⟩, ⟨0, 0, 0⟩⟩, ⟨⟨0, 0, 1⟩, ⟨1, 0, 0⟩, ⟨1, 0, 0⟩⟩, ⟨⟨0, 0, 0⟩, ⟨0, 1, 1⟩, ⟨0, 0, 0⟩⟩, ⟨⟨0, 0, 1⟩, ⟨1, 1, 1⟩, ⟨1, 0, 0⟩⟩]
  certs := [
    ⟨0, ⟨1, 0, 0, 0, 1, 0, 0, 0, 1⟩, ⟨0, 0, 0⟩, ⟨[0], [1], [2]⟩⟩,
    ⟨1, ⟨1, 0, 0, 0, 1, 0, 0, 0, 1⟩, ⟨0, 0, 0⟩, ⟨[0], [1], [2]⟩⟩,
    ⟨2, ⟨1, 0, 0, 0, 1, 0, 0, 0, 1⟩, ⟨0, 0, 0⟩, ⟨[0], [1], [2]⟩⟩,
    ⟨3, ⟨1, 0, 0, 0, 1, 0, 0, 0, 1⟩, ⟨0, 0, 0⟩, ⟨[0], [1], [2]⟩⟩]

/-- Class 50. -/
def k50 : Cls where
  gens := ⟨⟨0, -1, 0, 0, 0, -1, -1, 0, 0⟩, ⟨0, -1, 0, 0, 0, 1, 1, 0, 0⟩, ⟨1, 0, 0, 0, 1, 0, 0, 0, 1⟩⟩
  words := [[], [0], [1], [0, 0], [0, 1], [1, 0], [1, 1], [0, 0, 0], [0, 0, 1], [0, 1, 0], [0, 1, 1], [0, 0, 0, 0], [0, 0, 0, 1], [0, 0, 1, 0], [0, 0, 1, 1], [0, 0, 0, 0, 0], [0, 0, 0, 0, 1], [0, 0, 0, 1, 0], [0, 0, 0, 1, 1], [0, 0, 0, 0, 0, 1], [0, 0, 0, 0, 1, 0], [0, 0, 0, 0, 1, 1], [0, 0, 0, 0, 0, 1, 0], [0, 0, 0, 0, 0, 1, 1]]
  rels := [([2], []), ([0, 0, 0, 1, 1, 1], [])]
  terms := [⟨1, ⟨⟨0, 0, 0⟩, ⟨0, 0, 0⟩, ⟨1, 0, 0⟩⟩, [⟨1, 0, 0⟩, ⟨0, 0, 0⟩]⟩,
    ⟨1, ⟨⟨0, 0, 0⟩, ⟨0, 0, 0⟩, ⟨0, 1, 0⟩⟩, [⟨0, 1, 0⟩, ⟨0, 0, 0⟩]⟩,
    ⟨1, ⟨⟨0, 0, 0⟩, ⟨0, 0, 0⟩, ⟨0, 0, 1⟩⟩, [⟨0, 0, 1⟩, ⟨0, 0, 0⟩]⟩,
    ⟨1, ⟨⟨0, 0, 0⟩, ⟨1, 0, 0⟩, ⟨0, 0, 0⟩⟩, [⟨0, 0, 0⟩, ⟨-1, 0, 0⟩]⟩,
    ⟨2, ⟨⟨0, 0, 0⟩, ⟨1, 1, 0⟩, ⟨0, 0, 0⟩⟩, [⟨0, 0, 0⟩, ⟨1, -1, 0⟩]⟩,
    ⟨2, ⟨⟨0, 0, 0⟩, ⟨0, -1, 1⟩, ⟨0, 0, 0⟩⟩, [⟨0, 0, 0⟩, ⟨1, 0, -1⟩]⟩]
  s := ⟨⟨1, -1, 1, 1, 1, -1, -1, 1, 1⟩, ⟨0, 0, 0, 0, 0, 0, 0, 0, 0⟩, ⟨0, 0, 0, 0, 0, 0, 0, 0, 0⟩⟩
  n := 2
  m := 2
  reps := [⟨⟨0, 0, 0⟩, ⟨0, 0, 0⟩, ⟨0, 0, 0⟩⟩, ⟨⟨0, 0, 0⟩, ⟨0, -1, 1⟩, ⟨0, 0, 0⟩⟩, ⟨⟨0, 0, 0⟩, ⟨1, 1, 0⟩, ⟨0, 0, 0⟩⟩]
  certs := [
    ⟨0, ⟨1, 0, 0, 0, 1, 0, 0, 0, 1⟩, ⟨0, 0, 0⟩, ⟨[0], [1], []⟩⟩,
    ⟨1, ⟨1, 0, 0, 0, 1, 0, 0, 0, 1⟩, ⟨0, 0, 0⟩, ⟨[0], [1], []⟩⟩,
    ⟨2, ⟨1, 0, 0, 0, 1, 0, 0, 0, 1⟩, ⟨0, 0, 0⟩, ⟨[0], [1], []⟩⟩,
    ⟨2, ⟨-1, 0, 0, 0, 0, -1, 0, -1, 0⟩, ⟨0, 0, 0⟩, ⟨[0, 0, 0, 0, 0], [0, 0, 0, 1, 0], []⟩⟩]

/-- Class 51. -/
def k51 : Cls where
  gens := ⟨⟨0, -1, 0, 0, 0, -1, -1, 0, 0⟩, ⟨-1, 0, 1, 0, 0, 1, 0, -1, 1⟩, ⟨1, 0, 0, 0, 1, 0, 0, 0, 1⟩⟩
  words := [[], [0], [1], [0, 0], [0, 1], [1, 0], [1, 1], [0, 0, 0], [0, 0, 1], [0, 1, 0], [0, 1, 1], [0, 0, 0, 0], [0, 0, 0, 1], [0, 0, 1, 0], [0, 0, 1, 1], [0, 0, 0, 0, 0], [0, 0, 0, 0, 1], [0, 0, 0, 1, 0], [0, 0, 0, 1, 1], [0, 0, 0, 0, 0, 1], [0, 0, 0, 0, 1, 0], [0, 0, 0, 0, 1, 1], [0, 0, 0, 0, 0, 1, 0], [0, 0, 0, 0, 0, 1, 1]]
  rels := [([2], []), ([0, 0, 0, 1, 1, 1], [])]
  terms := [⟨1, ⟨⟨0, 0, 0⟩, ⟨0, 0, 0⟩, ⟨1, 0, 0⟩⟩, [⟨1, 0, 0⟩, ⟨0, 0, 0⟩]⟩,
    ⟨1, ⟨⟨0, 0, 0⟩, ⟨0, 0, 0⟩, ⟨0, 1, 0⟩⟩, [⟨0, 1, 0⟩, ⟨0, 0, 0⟩]⟩,
    ⟨1, ⟨⟨0, 0, 0⟩, ⟨0, 0, 0⟩, ⟨0, 0, 1⟩⟩, [⟨0, 0, 1⟩, ⟨0, 0, 0⟩]⟩,
    ⟨1, ⟨⟨0, 0, 0⟩, ⟨1, 0, 0⟩, ⟨0, 0, 0⟩⟩, [⟨0, 0, 0⟩, ⟨-1, 0, 0⟩]⟩,
    ⟨1, ⟨⟨1, 0, 0⟩, ⟨1, 0, 0⟩, ⟨0, 0, 0⟩⟩, [⟨0, 0, 0⟩, ⟨0, 1, 0⟩]⟩,
    ⟨2, ⟨⟨0, 0, 0⟩, ⟨1, 1, 0⟩, ⟨0, 0, 0⟩⟩, [⟨0, 0, 0⟩, ⟨0, 1, 1⟩]⟩]
  s := ⟨⟨0, -2, 2, 0, 0, 0, 0, 2, 0⟩, ⟨0, 0, 2, 0, 0, 2, 0, 0, -2⟩, ⟨0, 0, 0, 0, 0, 0, 0, 0, 0⟩⟩
  n := 2
  m := 2
  reps := [⟨⟨0, 0, 0⟩, ⟨0, 0, 0⟩, ⟨0, 0, 0⟩⟩, ⟨⟨0, 0, 0⟩, ⟨1, 1, 0⟩, ⟨0, 0, 0⟩⟩]
  certs := [
    ⟨0, ⟨1, 0, 0, 0, 1, 0, 0, 0, 1⟩, ⟨0, 0, 0⟩, ⟨[0], [1], []⟩⟩,
    ⟨1, ⟨1, 0, 0, 0, 1, 0, 0, 0, 1⟩, ⟨0, 0, 0⟩, ⟨[0], [1], []⟩⟩]

/-- Class 52. -/
def k52 : Cls where
  gens := ⟨⟨0, -1, 0, 0, 0, -1, -1, 0, 0⟩, ⟨-1, 0, 0, 0, 0, -1, 1, 1, 1⟩, ⟨1, 0, 0, 0, 1, 0, 0, 0, 1⟩⟩
  words := [[], [0], [1], [0, 0], [0, 1], [1, 0], [1, 1], [0, 0, 0], [0, 0, 1], [0, 1, 0], [0, 1, 1], [1, 0, 0], [1, 0, 1], [1, 1, 0], [0, 0, 0, 0], [0, 0, 0, 1], [0, 0, 1, 0], [0, 1, 0, 0], [0, 1, 1, 0], [1, 0, 1, 1], [1, 1, 0, 1], [0, 0, 0, 0, 1], [0, 0, 0, 1, 0], [0, 0, 1, 0, 0]]
  rels := [([2], []), ([1, 0, 1, 0], []), ([1, 1, 0, 0], [0, 1])]
  terms := [⟨1, ⟨⟨0, 0, 0⟩, ⟨0, 0, 0⟩, ⟨1, 0, 0⟩⟩, [⟨1, 0, 0⟩, ⟨0, 0, 0⟩, ⟨0, 0, 0⟩]⟩,
    ⟨1, ⟨⟨0, 0, 0⟩, ⟨0, 0, 0⟩, ⟨0, 1, 0⟩⟩, [⟨0, 1, 0⟩, ⟨0, 0, 0⟩, ⟨0, 0, 0⟩]⟩,
    ⟨1, ⟨⟨0, 0, 0⟩, ⟨0, 0, 0⟩, ⟨0, 0, 1⟩⟩, [⟨0, 0, 1⟩, ⟨0, 0, 0⟩, ⟨0, 0, 0⟩]⟩,
    ⟨1, ⟨⟨0, 0, 0⟩, ⟨1, 0, 0⟩, ⟨0, 0, 0⟩⟩, [⟨0, 0, 0⟩, ⟨1, 0, 0⟩, ⟨0, 0, 0⟩]⟩,
    ⟨1, ⟨⟨0, 0, 0⟩, ⟨-1, 1, 0⟩, ⟨0, 0, 0⟩⟩, [⟨0, 0, 0⟩, ⟨0, 0, 0⟩, ⟨1, 0, 0⟩]⟩,
    ⟨2, ⟨⟨0, 0, 0⟩, ⟨0, 0, 1⟩, ⟨0, 0, 0⟩⟩, [⟨0, 0, 0⟩, ⟨-2, 0, 0⟩, ⟨1, 0, 1⟩]⟩]
  s := ⟨⟨1, -1, 1, 1, 1, -1, -1, 1, 1⟩, ⟨0, 0, 0, 0, 0, 0, 0, 0, 0⟩, ⟨0, 0, 0, 0, 0, 0, 0, 0, 0⟩⟩
  n := 2
  m := 2
  reps := [⟨⟨0, 0, 0⟩, ⟨0, 0, 0⟩, ⟨0, 0, 0⟩⟩, ⟨⟨0, 0, 0⟩, ⟨0, 0, 1⟩, ⟨0, 0, 0⟩⟩]
  certs := [
    ⟨0, ⟨1, 0, 0, 0, 1, 0, 0, 0, 1⟩, ⟨0, 0, 0⟩, ⟨[0], [1], []⟩⟩,
    ⟨1, ⟨1, 0, 0, 0, 1, 0, 0, 0, 1⟩, ⟨0, 0, 0⟩, ⟨[0], [1], []⟩⟩]

/-- Class 53. -/
def k53 : Cls where
  gens := ⟨⟨-1, 0, 0, 0, 0, -1, 0, 1, 0⟩, ⟨0, -1, 0, 1, 0, 0, 0, 0, -1⟩, ⟨1, 0, 0, 0, 1, 0, 0, 0, 1⟩⟩
  words := [[], [0], [1], [0, 0], [0, 1], [1, 0], [1, 1], [0, 0, 0], [0, 0, 1], [0, 1, 0], [0, 1, 1], [1, 0, 0], [1, 1, 0], [1, 1, 1], [0, 0, 0, 1], [0, 0, 1, 0], [0, 0, 1, 1], [0, 1, 0, 0], [0, 1, 1, 1], [1, 0, 0, 0], [1, 1, 1, 0], [0, 0, 0, 1, 0], [0, 1, 0, 0, 0], [0, 1, 1, 1, 0]]
  rels := [([2], []), ([1, 0, 1], [0, 1, 0]), ([1, 0, 0, 1], [0, 0])]
  terms := [⟨1, ⟨⟨0, 0, 0⟩, ⟨0, 0, 0⟩, ⟨1, 0, 0⟩⟩, [⟨1, 0, 0⟩, ⟨0, 0, 0⟩, ⟨0, 0, 0⟩]⟩,
    ⟨1, ⟨⟨0, 0, 0⟩, ⟨0, 0, 0⟩, ⟨0, 1, 0⟩⟩, [⟨0, 1, 0⟩, ⟨0, 0, 0⟩, ⟨0, 0, 0⟩]⟩,
    ⟨1, ⟨⟨0, 0, 0⟩, ⟨0, 0, 0⟩, ⟨0, 0, 1⟩⟩, [⟨0, 0, 1⟩, ⟨0, 0, 0⟩, ⟨0, 0, 0⟩]⟩,
    ⟨1, ⟨⟨0, 0, 0⟩, ⟨0, 0, 1⟩, ⟨0, 0, 0⟩⟩, [⟨0, 0, 0⟩, ⟨1, 0, 0⟩, ⟨0, 0, 0⟩]⟩,
    ⟨1, ⟨⟨0, 0, 0⟩, ⟨0, 1, 0⟩, ⟨0, 0, 0⟩⟩, [⟨0, 0, 0⟩, ⟨-1, 1, 0⟩, ⟨0, 0, 0⟩]⟩,
    ⟨2, ⟨⟨1, 0, 0⟩, ⟨0, -2, 1⟩, ⟨0, 0, 0⟩⟩, [⟨0, 0, 0⟩, ⟨-1, 1, 0⟩, ⟨-1, 0, 0⟩]⟩]
  s := ⟨⟨0, -1, 1, 0, 1, -1, 0, 1, 1⟩, ⟨2, 0, 0, 0, 0, 0, 0, 0, 0⟩, ⟨0, 0, 0, 0, 0, 0, 0, 0, 0⟩⟩
  n := 2
  m := 2
  reps := [⟨⟨0, 0, 0⟩, ⟨0, 0, 0⟩, ⟨0, 0, 0⟩⟩, ⟨⟨1, 0, 0⟩, ⟨0, -2, 1⟩, ⟨0, 0, 0⟩⟩]
  certs := [
    ⟨0, ⟨1, 0, 0, 0, 1, 0, 0, 0, 1⟩, ⟨0, 0, 0⟩, ⟨[0], [1], []⟩⟩,
    ⟨1, ⟨1, 0, 0, 0, 1, 0, 0, 0, 1⟩, ⟨0, 0, 0⟩, ⟨[0], [1], []⟩⟩]

/-- Class 54. -/
def k54 : Cls where
  gens := ⟨⟨-1, 0, 1, -1, 0, 0, -1, 1, 0⟩, ⟨-1, 1, 0, -1, 0, 1, -1, 0, 0⟩, ⟨1, 0, 0, 0, 1, 0, 0, 0, 1⟩⟩
  words := [[], [0], [1], [0, 0], [0, 1], [1, 0], [1, 1], [0, 0, 0], [0, 0, 1], [0, 1, 0], [0, 1, 1], [1, 0, 0], [1, 1, 0], [1, 1, 1], [0, 0, 0, 1], [0, 0, 1, 0], [0, 0, 1, 1], [0, 1, 0, 0], [0, 1, 1, 1], [1, 0, 0, 0], [1, 1, 1, 0], [0, 0, 0, 1, 0], [0, 1, 0, 0, 0], [0, 1, 1, 1, 0]]
  rels := [([2], []), ([0, 1, 1, 0], [1, 1]), ([1, 0, 0, 1], [0, 0])]
  terms := [⟨1, ⟨⟨0, 0, 0⟩, ⟨0, 0, 0⟩, ⟨1, 0, 0⟩⟩, [⟨1, 0, 0⟩, ⟨0, 0, 0⟩, ⟨0, 0, 0⟩]⟩,
    ⟨1, ⟨⟨0, 0, 0⟩, ⟨0, 0, 0⟩, ⟨0, 1, 0⟩⟩, [⟨0, 1, 0⟩, ⟨0, 0, 0⟩, ⟨0, 0, 0⟩]⟩,
    ⟨1, ⟨⟨0, 0, 0⟩, ⟨0, 0, 0⟩, ⟨0, 0, 1⟩⟩, [⟨0, 0, 1⟩, ⟨0, 0, 0⟩, ⟨0, 0, 0⟩]⟩,
    ⟨1, ⟨⟨0, 0, 0⟩, ⟨1, 0, 0⟩, ⟨0, 0, 0⟩⟩, [⟨0, 0, 0⟩, ⟨-1, 0, 0⟩, ⟨0, 0, 0⟩]⟩,
    ⟨1, ⟨⟨0, 1, 0⟩, ⟨0, 0, 0⟩, ⟨0, 0, 0⟩⟩, [⟨0, 0, 0⟩, ⟨2, 0, 0⟩, ⟨1, 0, 0⟩]⟩,
    ⟨2, ⟨⟨0, 1, 0⟩, ⟨0, 1, 2⟩, ⟨0, 0, 0⟩⟩, [⟨0, 0, 0⟩, ⟨3, -1, 0⟩, ⟨2, 0, 0⟩]⟩]
  s := ⟨⟨-2, 0, 4, -8, 0, 10, -6, 0, 8⟩, ⟨0, 4, -2, 0, 12, -6, 0, 8, -4⟩, ⟨0, 0, 0, 0, 0, 0, 0, 0, 0⟩⟩
  n := 2
  m := 2
  reps := [⟨⟨0, 0, 0⟩, ⟨0, 0, 0⟩, ⟨0, 0, 0⟩⟩, ⟨⟨0, 1, 0⟩, ⟨0, 1, 2⟩, ⟨0, 0, 0⟩⟩]
  certs := [
    ⟨0, ⟨1, 0, 0, 0, 1, 0, 0, 0, 1⟩, ⟨0, 0, 0⟩, ⟨[0], [1], []⟩⟩,
    ⟨1, ⟨1, 0, 0, 0, 1, 0, 0, 0, 1⟩, ⟨0, 0, 0⟩, ⟨[0], [1], []⟩⟩]

/-- Class 55. -/
def k55 : Cls where
  gens := ⟨⟨-1, -1, -1, 0, 0, 1, 1, 0, 0⟩, ⟨-1, -1, -1, 1, 0, 0, 0, 1, 0⟩, ⟨1, 0, 0, 0, 1, 0, 0, 0, 1⟩⟩
  words := [[], [0], [1], [0, 0], [0, 1], [1, 0], [1, 1], [0, 0, 0], [0, 0, 1], [0, 1, 0], [0, 1, 1], [1, 0, 0], [1, 1, 0], [1, 1, 1], [0, 0, 0, 1], [0, 0, 1, 0], [0, 0, 1, 1], [0, 1, 0, 0], [0, 1, 1, 1], [1, 0, 0, 0], [1, 1, 1, 0], [0, 0, 0, 1, 0], [0, 1, 0, 0, 0], [0, 1, 1, 1, 0]]
  rels := [([2], []), ([1, 0, 1], [0, 1, 0]), ([1, 0, 0, 1], [0, 0])]
  terms := [⟨1, ⟨⟨0, 0, 0⟩, ⟨0, 0, 0⟩, ⟨1, 0, 0⟩⟩, [⟨1, 0, 0⟩, ⟨0, 0, 0⟩, ⟨0, 0, 0⟩]⟩,
    ⟨1, ⟨⟨0, 0, 0⟩, ⟨0, 0, 0⟩, ⟨0, 1, 0⟩⟩, [⟨0, 1, 0⟩, ⟨0, 0, 0⟩, ⟨0, 0, 0⟩]⟩,
    ⟨1, ⟨⟨0, 0, 0⟩, ⟨0, 0, 0⟩, ⟨0, 0, 1⟩⟩, [⟨0, 0, 1⟩, ⟨0, 0, 0⟩, ⟨0, 0, 0⟩]⟩,
    ⟨1, ⟨⟨0, 0, 0⟩, ⟨0, 0, 1⟩, ⟨0, 0, 0⟩⟩, [⟨0, 0, 0⟩, ⟨1, 0, 0⟩, ⟨0, 0, 0⟩]⟩,
    ⟨1, ⟨⟨0, 0, 0⟩, ⟨1, 0, -2⟩, ⟨0, 0, 0⟩⟩, [⟨0, 0, 0⟩, ⟨1, 0, 0⟩, ⟨-1, 0, 0⟩]⟩,
    ⟨2, ⟨⟨0, 0, 0⟩, ⟨-2, 1, 2⟩, ⟨0, 0, 0⟩⟩, [⟨0, 0, 0⟩, ⟨1, -1, 0⟩, ⟨-3, 0, 0⟩]⟩]
  s := ⟨⟨1, -1, -2, 1, 3, 2, 1, -1, 2⟩, ⟨0, 0, 0, 0, 0, 0, 0, 0, 0⟩, ⟨0, 0, 0, 0, 0, 0, 0, 0, 0⟩⟩
  n := 4
  m := 4
  reps := [⟨⟨0, 0, 0⟩, ⟨0, 0, 0⟩, ⟨0, 0, 0⟩⟩, ⟨⟨0, 0, 0⟩, ⟨-4, 2, 4⟩, ⟨0, 0, 0⟩⟩]
  certs := [
    ⟨0, ⟨1, 0, 0, 0, 1, 0, 0, 0, 1⟩, ⟨0, 0, 0⟩, ⟨[0], [1], []⟩⟩,
    ⟨1, ⟨1, 0, 0, 0, 1, 0, 0, 0, 1⟩, ⟨0, 0, 0⟩, ⟨[0], [1], []⟩⟩]

/-- Class 56. -/
def k56 : Cls where
  gens := ⟨⟨0, -1, 0, 1, 0, 0, 0, 0, 1⟩, ⟨0, 0, -1, 0, 1, 0, 1, 0, 0⟩, ⟨1, 0, 0, 0, 1, 0, 0, 0, 1⟩⟩
  words := [[], [0], [1], [0, 0], [0, 1], [1, 0], [1, 1], [0, 0, 0], [0, 0, 1], [0, 1, 0], [0, 1, 1], [1, 0, 0], [1, 1, 0], [1, 1, 1], [0, 0, 0, 1], [0, 0, 1, 0], [0, 0, 1, 1], [0, 1, 0, 0], [0, 1, 1, 1], [1, 0, 0, 0], [1, 1, 1, 0], [0, 0, 0, 1, 0], [0, 1, 0, 0, 0], [0, 1, 1, 1, 0]]
  rels := [([2], []), ([1, 1, 1, 1], []), ([1, 0, 1], [0, 1, 0])]
  terms := [⟨1, ⟨⟨0, 0, 0⟩, ⟨0, 0, 0⟩, ⟨1, 0, 0⟩⟩, [⟨1, 0, 0⟩, ⟨0, 0, 0⟩, ⟨0, 0, 0⟩]⟩,
    ⟨1, ⟨⟨0, 0, 0⟩, ⟨0, 0, 0⟩, ⟨0, 1, 0⟩⟩, [⟨0, 1, 0⟩, ⟨0, 0, 0⟩, ⟨0, 0, 0⟩]⟩,
    ⟨1, ⟨⟨0, 0, 0⟩, ⟨0, 0, 0⟩, ⟨0, 0, 1⟩⟩, [⟨0, 0, 1⟩, ⟨0, 0, 0⟩, ⟨0, 0, 0⟩]⟩,
    ⟨1, ⟨⟨0, 0, 0⟩, ⟨1, 0, 0⟩, ⟨0, 0, 0⟩⟩, [⟨0, 0, 0⟩, ⟨0, 0, 0⟩, ⟨1, 0, 0⟩]⟩,
    ⟨1, ⟨⟨0, 0, 0⟩, ⟨-1, 1, 0⟩, ⟨0, 0, 0⟩⟩, [⟨0, 0, 0⟩, ⟨0, 0, 0⟩, ⟨0, 1, 0⟩]⟩,
    ⟨4, ⟨⟨0, 0, 1⟩, ⟨2, -1, 0⟩, ⟨0, 0, 0⟩⟩, [⟨0, 0, 0⟩, ⟨0, -1, 0⟩, ⟨0, 4, 0⟩]⟩]
  s := ⟨⟨2, -2, 0, 2, 2, 0, 2, -2, 0⟩, ⟨0, 0, 0, 0, 0, 0, 0, 0, 4⟩, ⟨0, 0, 0, 0, 0, 0, 0, 0, 0⟩⟩
  n := 4
  m := 4
  reps := [⟨⟨0, 0, 0⟩, ⟨0, 0, 0⟩, ⟨0, 0, 0⟩⟩, ⟨⟨0, 0, 1⟩, ⟨2, -1, 0⟩, ⟨0, 0, 0⟩⟩, ⟨⟨0, 0, 2⟩, ⟨4, -2, 0⟩, ⟨0, 0, 0⟩⟩, ⟨⟨0, 0, 3⟩, ⟨6, -3, 0⟩, ⟨0, 0, 0⟩⟩]
  certs := [
    ⟨0, ⟨1, 0, 0, 0, 1, 0, 0, 0, 1⟩, ⟨0, 0, 0⟩, ⟨[0], [1], []⟩⟩,
    ⟨1, ⟨1, 0, 0, 0, 1, 0, 0, 0, 1⟩, ⟨0, 0, 0⟩, ⟨[0], [1], []⟩⟩,
    ⟨2, ⟨1, 0, 0, 0, 1, 0, 0, 0, 1⟩, ⟨0, 0, 0⟩, ⟨[0], [1], []⟩⟩,
    ⟨3, ⟨1, 0, 0, 0, 1, 0, 0, 0, 1⟩, ⟨0, 0, 0⟩, ⟨[0], [1], []⟩⟩]

/-- Class 57. -/
def k57 : Cls where
  gens := ⟨⟨0, -1, 1, 0, 0, 1, -1, 0, 1⟩, ⟨0, 0, 1, -1, 0, 1, 0, -1, 1⟩, ⟨1, 0, 0, 0, 1, 0, 0, 0, 1⟩⟩
  words := [[], [0], [1], [0, 0], [0, 1], [1, 0], [1, 1], [0, 0, 0], [0, 0, 1], [0, 1, 0], [0, 1, 1], [1, 0, 0], [1, 1, 0], [1, 1, 1], [0, 0, 0, 1], [0, 0, 1, 0], [0, 0, 1, 1], [0, 1, 0, 0], [0, 1, 1, 1], [1, 0, 0, 0], [1, 1, 1, 0], [0, 0, 0, 1, 0], [0, 1, 0, 0, 0], [0, 1, 1, 1, 0]]
  rels := [([2], []), ([0, 1, 1, 0], [1, 1]), ([1, 0, 0, 1], [0, 0])]
  terms := [⟨1, ⟨⟨0, 0, 0⟩, ⟨0, 0, 0⟩, ⟨1, 0, 0⟩⟩, [⟨1, 0, 0⟩, ⟨0, 0, 0⟩, ⟨0, 0, 0⟩]⟩,
    ⟨1, ⟨⟨0, 0, 0⟩, ⟨0, 0, 0⟩, ⟨0, 1, 0⟩⟩, [⟨0, 1, 0⟩, ⟨0, 0, 0⟩, ⟨0, 0, 0⟩]⟩,
    ⟨1, ⟨⟨0, 0, 0⟩, ⟨0, 0, 0⟩, ⟨0, 0, 1⟩⟩, [⟨0, 0, 1⟩, ⟨0, 0, 0⟩, ⟨0, 0, 0⟩]⟩,
    ⟨1, ⟨⟨0, 0, 0⟩, ⟨1, 0, 0⟩, ⟨0, 0, 0⟩⟩, [⟨0, 0, 0⟩, ⟨0, 1, 0⟩, ⟨0, 0, 0⟩]⟩,
    ⟨1, ⟨⟨0, 0, 0⟩, ⟨2, 1, 0⟩, ⟨0, 0, 0⟩⟩, [⟨0, 0, 0⟩, ⟨0, 0, 0⟩, ⟨1, 0, 0⟩]⟩,
    ⟨2, ⟨⟨1, 0, 0⟩, ⟨3, 2, 0⟩, ⟨0, 0, 0⟩⟩, [⟨0, 0, 0⟩, ⟨0, -1, -1⟩, ⟨-2, 0, 0⟩]⟩]
  s := ⟨⟨0, 0, 2, 0, 0, 0, 0, -2, 0⟩, ⟨0, 0, 0, 0, 0, 2, 0, 0, 2⟩, ⟨0, 0, 0, 0, 0, 0, 0, 0, 0⟩⟩
  n := 2
  m := 2
  reps := [⟨⟨0, 0, 0⟩, ⟨0, 0, 0⟩, ⟨0, 0, 0⟩⟩, ⟨⟨1, 0, 0⟩, ⟨3, 2, 0⟩, ⟨0, 0, 0⟩⟩]
  certs := [
    ⟨0, ⟨1, 0, 0, 0, 1, 0, 0, 0, 1⟩, ⟨0, 0, 0⟩, ⟨[0], [1], []⟩⟩,
    ⟨1, ⟨1, 0, 0, 0, 1, 0, 0, 0, 1⟩, ⟨0, 0, 0⟩, ⟨[0], [1], []⟩⟩]

/-- Class 58. -/
def k58 : Cls where
  gens := ⟨⟨0, -1, 0, 0, 0, -1, 1, 1, 1⟩, ⟨0, -1, 0, 1, 1, 1, -1, 0, 0⟩, ⟨1, 0, 0, 0, 1, 0, 0, 0, 1⟩⟩
  words := [[], [0], [1], [0, 0], [0, 1], [1, 0], [1, 1], [0, 0, 0], [0, 0, 1], [0, 1, 0], [0, 1, 1], [1, 0, 0], [1, 1, 0], [1, 1, 1], [0, 0, 0, 1], [0, 0, 1, 0], [0, 0, 1, 1], [0, 1, 0, 0], [0, 1, 1, 1], [1, 0, 0, 0], [1, 1, 1, 0], [0, 0, 0, 1, 0], [0, 1, 0, 0, 0], [0, 1, 1, 1, 0]]
  rels := [([2], []), ([1, 1, 1, 1], []), ([1, 0, 1], [0, 1, 0])]
  terms := [⟨1, ⟨⟨0, 0, 0⟩, ⟨0, 0, 0⟩, ⟨1, 0, 0⟩⟩, [⟨1, 0, 0⟩, ⟨0, 0, 0⟩, ⟨0, 0, 0⟩]⟩,
    ⟨1, ⟨⟨0, 0, 0⟩, ⟨0, 0, 0⟩, ⟨0, 1, 0⟩⟩, [⟨0, 1, 0⟩, ⟨0, 0, 0⟩, ⟨0, 0, 0⟩]⟩,
    ⟨1, ⟨⟨0, 0, 0⟩, ⟨0, 0, 0⟩, ⟨0, 0, 1⟩⟩, [⟨0, 0, 1⟩, ⟨0, 0, 0⟩, ⟨0, 0, 0⟩]⟩,
    ⟨1, ⟨⟨0, 0, 0⟩, ⟨1, 0, 0⟩, ⟨0, 0, 0⟩⟩, [⟨0, 0, 0⟩, ⟨0, 0, 0⟩, ⟨1, 0, 0⟩]⟩,
    ⟨1, ⟨⟨0, 0, 0⟩, ⟨-1, 1, 0⟩, ⟨0, 0, 0⟩⟩, [⟨0, 0, 0⟩, ⟨0, 0, 0⟩, ⟨1, 0, 1⟩]⟩,
    ⟨2, ⟨⟨1, 0, 0⟩, ⟨-1, 1, 0⟩, ⟨0, 0, 0⟩⟩, [⟨0, 0, 0⟩, ⟨0, 0, 1⟩, ⟨-2, 0, -2⟩]⟩]
  s := ⟨⟨0, -1, -1, 0, 1, -1, 0, 1, 1⟩, ⟨0, 0, 1, 0, 0, -1, 0, 0, 1⟩, ⟨0, 0, 0, 0, 0, 0, 0, 0, 0⟩⟩
  n := 2
  m := 2
  reps := [⟨⟨0, 0, 0⟩, ⟨0, 0, 0⟩, ⟨0, 0, 0⟩⟩, ⟨⟨1, 0, 0⟩, ⟨-1, 1, 0⟩, ⟨0, 0, 0⟩⟩]
  certs := [
    ⟨0, ⟨1, 0, 0, 0, 1, 0, 0, 0, 1⟩, ⟨0, 0, 0⟩, ⟨[0], [1], []⟩⟩,
    ⟨1, ⟨1, 0, 0, 0, 1, 0, 0, 0, 1⟩, ⟨0, 0, 0⟩, ⟨[0], [1], []⟩⟩]

/-- Class 59. -/
def k59 : Cls where
  gens := ⟨⟨0, -1, 0, 0, 0, -1, -1, 0, 0⟩, ⟨-1, 0, 0, 0, 0, -1, 0, 1, 0⟩, ⟨1, 0, 0, 0, 1, 0, 0, 0, 1⟩⟩
  words := [[], [0], [1], [0, 0], [0, 1], [1, 0], [1, 1], [0, 0, 0], [0, 0, 1], [0, 1, 0], [0, 1, 1], [1, 0, 0], [1, 0, 1], [1, 1, 0], [0, 0, 0, 0], [0, 0, 0, 1], [0, 0, 1, 0], [0, 0, 1, 1], [0, 1, 0, 0], [0, 1, 1, 0], [1, 0, 0, 1], [1, 0, 1, 1], [1, 1, 0, 0], [1, 1, 0, 1], [0, 0, 0, 0, 1], [0, 0, 0, 1, 0], [0, 0, 0, 1, 1], [0, 0, 1, 0, 0], [0, 0, 1, 1, 0], [0, 1, 0, 0, 1], [0, 1, 1, 0, 0], [0, 1, 1, 0, 1], [1, 0, 0, 1, 0], [1, 0, 0, 1, 1], [1, 0, 1, 1, 0], [1, 1, 0, 0, 1], [1, 1, 0, 1, 1], [0, 0, 0, 0, 1, 0], [0, 0, 0, 0, 1, 1], [0, 0, 0, 1, 1, 0], [0, 0, 1, 0, 0, 1], [0, 0, 1, 1, 0, 1], [0, 1, 0, 0, 1, 1], [0, 1, 1, 0, 0, 1], [1, 0, 0, 1, 0, 0], [1, 1, 0, 0, 1, 0], [0, 0, 0, 0, 1, 1, 0], [0, 0, 1, 0, 0, 1, 1]]
  rels := [([2], []), ([1, 0, 1, 0], []), ([1, 0, 0, 0], [0, 0, 0, 1])]
  terms := [⟨1, ⟨⟨0, 0, 0⟩, ⟨0, 0, 0⟩, ⟨1, 0, 0⟩⟩, [⟨1, 0, 0⟩, ⟨0, 0, 0⟩, ⟨0, 0, 0⟩]⟩,
    ⟨1, ⟨⟨0, 0, 0⟩, ⟨0, 0, 0⟩, ⟨0, 1, 0⟩⟩, [⟨0, 1, 0⟩, ⟨0, 0, 0⟩, ⟨0, 0, 0⟩]⟩,
    ⟨1, ⟨⟨0, 0, 0⟩, ⟨0, 0, 0⟩, ⟨0, 0, 1⟩⟩, [⟨0, 0, 1⟩, ⟨0, 0, 0⟩, ⟨0, 0, 0⟩]⟩,
    ⟨1, ⟨⟨0, 0, 0⟩, ⟨1, 0, 0⟩, ⟨0, 0, 0⟩⟩, [⟨0, 0, 0⟩, ⟨1, 0, 0⟩, ⟨0, 0, 0⟩]⟩,
    ⟨2, ⟨⟨0, 0, 0⟩, ⟨-1, 1, 0⟩, ⟨0, 0, 0⟩⟩, [⟨0, 0, 0⟩, ⟨2, 0, 0⟩, ⟨-1, 0, 0⟩]⟩,
    ⟨2, ⟨⟨0, 0, 0⟩, ⟨0, 0, 1⟩, ⟨0, 0, 0⟩⟩, [⟨0, 0, 0⟩, ⟨0, 0, 0⟩, ⟨0, 0, 1⟩]⟩]
  s := ⟨⟨1, -1, 1, 1, 1, -1, -1, 1, 1⟩, ⟨0, 0, 0, 0, 0, 0, 0, 0, 0⟩, ⟨0, 0, 0, 0, 0, 0, 0, 0, 0⟩⟩
  n := 2
  m := 2
  reps := [⟨⟨0, 0, 0⟩, ⟨0, 0, 0⟩, ⟨0, 0, 0⟩⟩, ⟨⟨0, 0, 0⟩, ⟨0, 0, 1⟩, ⟨0, 0, 0⟩⟩, ⟨⟨0, 0, 0⟩, ⟨-1, 1, 0⟩, ⟨0, 0, 0⟩⟩, ⟨⟨0, 0, 0⟩, ⟨-1, 1, 1⟩, ⟨0, 0, 0⟩⟩]
  certs := [
    ⟨0, ⟨1, 0, 0, 0, 1, 0, 0, 0, 1⟩, ⟨0, 0, 0⟩, ⟨[0], [1], []⟩⟩,
    ⟨1, ⟨1, 0, 0, 0, 1, 0, 0, 0, 1⟩, ⟨0, 0, 0⟩, ⟨[0], [1], []⟩⟩,
    ⟨2, ⟨1, 0, 0, 0, 1, 0, 0, 0, 1⟩, ⟨0, 0, 0⟩, ⟨[0], [1], []⟩⟩,
    ⟨3, ⟨1, 0, 0, 0, 1, 0, 0, 0, 1⟩, ⟨0, 0, 0⟩, ⟨[0], [1], []⟩⟩]

/-- Class 60. -/
def k60 : Cls where
  gens := ⟨⟨0, -1, 0, 0, 0, -1, -1, 0, 0⟩, ⟨-1, 0, 1, -1, 0, 0, -1, 1, 0⟩, ⟨1, 0, 0, 0, 1, 0, 0, 0, 1⟩⟩
  words := [[], [0], [1], [0, 0], [0, 1], [1, 0], [1, 1], [0, 0, 0], [0, 0, 1], [0, 1, 0], [0, 1, 1], [1, 0, 0], [1, 0, 1], [1, 1, 0], [0, 0, 0, 0], [0, 0, 0, 1], [0, 0, 1, 0], [0, 0, 1, 1], [0, 1, 0, 0], [0, 1, 1, 0], [1, 0, 0, 1], [1, 0, 1, 1], [1, 1, 0, 0], [1, 1, 0, 1], [0, 0, 0, 0, 1], [0, 0, 0, 1, 0], [0, 0, 0, 1, 1], [0, 0, 1, 0, 0], [0, 0, 1, 1, 0], [0, 1, 0, 0, 1], [0, 1, 1, 0, 0], [0, 1, 1, 0, 1], [1, 0, 0, 1, 0], [1, 0, 0, 1, 1], [1, 0, 1, 1, 0], [1, 1, 0, 0, 1], [1, 1, 0, 1, 1], [0, 0, 0, 0, 1, 0], [0, 0, 0, 0, 1, 1], [0, 0, 0, 1, 1, 0], [0, 0, 1, 0, 0, 1], [0, 0, 1, 1, 0, 1], [0, 1, 0, 0, 1, 1], [0, 1, 1, 0, 0, 1], [1, 0, 0, 1, 0, 0], [1, 1, 0, 0, 1, 0], [0, 0, 0, 0, 1, 1, 0], [0, 0, 1, 0, 0, 1, 1]]
  rels := [([2], []), ([1, 0, 1, 0], []), ([1, 0, 0, 0], [0, 0, 0, 1])]
  terms := [⟨1, ⟨⟨0, 0, 0⟩, ⟨0, 0, 0⟩, ⟨1, 0, 0⟩⟩, [⟨1, 0, 0⟩, ⟨0, 0, 0⟩, ⟨0, 0, 0⟩]⟩,
    ⟨1, ⟨⟨0, 0, 0⟩, ⟨0, 0, 0⟩, ⟨0, 1, 0⟩⟩, [⟨0, 1, 0⟩, ⟨0, 0, 0⟩, ⟨0, 0, 0⟩]⟩,
    ⟨1, ⟨⟨0, 0, 0⟩, ⟨0, 0, 0⟩, ⟨0, 0, 1⟩⟩, [⟨0, 0, 1⟩, ⟨0, 0, 0⟩, ⟨0, 0, 0⟩]⟩,
    ⟨1, ⟨⟨0, 0, 0⟩, ⟨0, 1, 0⟩, ⟨0, 0, 0⟩⟩, [⟨0, 0, 0⟩, ⟨1, 0, 0⟩, ⟨0, 0, 0⟩]⟩,
    ⟨1, ⟨⟨0, 0, 1⟩, ⟨0, 0, 0⟩, ⟨0, 0, 0⟩⟩, [⟨0, 0, 0⟩, ⟨0, 0, 0⟩, ⟨-1, 0, 0⟩]⟩,
    ⟨2, ⟨⟨0, 0, 0⟩, ⟨0, 0, 1⟩, ⟨0, 0, 0⟩⟩, [⟨0, 0, 0⟩, ⟨0, 0, 0⟩, ⟨-3, 0, 1⟩]⟩]
  s := ⟨⟨-2, 2, 0, 4, -2, 0, -4, 4, 0⟩, ⟨2, 0, 0, -2, 0, 0, 2, 0, 0⟩, ⟨0, 0, 0, 0, 0, 0, 0, 0, 0⟩⟩
  n := 2
  m := 2
  reps := [⟨⟨0, 0, 0⟩, ⟨0, 0, 0⟩, ⟨0, 0, 0⟩⟩, ⟨⟨0, 0, 0⟩, ⟨0, 0, 1⟩, ⟨0, 0, 0⟩⟩]
  certs := [
    ⟨0, ⟨1, 0, 0, 0, 1, 0, 0, 0, 1⟩, ⟨0, 0, 0⟩, ⟨[0], [1], []⟩⟩,
    ⟨1, ⟨1, 0, 0, 0, 1, 0, 0, 0, 1⟩, ⟨0, 0, 0⟩, ⟨[0], [1], []⟩⟩]

/-- Class 61. -/
def k61 : Cls where
  gens := ⟨⟨0, -1, 0, 0, 0, -1, -1, 0, 0⟩, ⟨-1, -1, -1, 0, 0, 1, 1, 0, 0⟩, ⟨1, 0, 0, 0, 1, 0, 0, 0, 1⟩⟩
  words := [[], [0], [1], [0, 0], [0, 1], [1, 0], [1, 1], [0, 0, 0], [0, 0, 1], [0, 1, 0], [0, 1, 1], [1, 0, 0], [1, 0, 1], [1, 1, 0], [1, 1, 1], [0, 0, 0, 0], [0, 0, 0, 1], [0, 0, 1, 0], [0, 0, 1, 1], [0, 1, 0, 0], [0, 1, 0, 1], [0, 1, 1, 0], [0, 1, 1, 1], [1, 0, 1, 0], [1, 0, 1, 1], [1, 1, 0, 0], [1, 1, 0, 1], [1, 1, 1, 0], [0, 0, 0, 0, 0], [0, 0, 0, 0, 1], [0, 0, 0, 1, 0], [0, 0, 0, 1, 1], [0, 0, 1, 1, 0], [0, 0, 1, 1, 1], [0, 1, 0, 1, 0], [0, 1, 0, 1, 1], [0, 1, 1, 0, 0], [0, 1, 1, 0, 1], [1, 0, 1, 1, 0], [1, 0, 1, 1, 1], [1, 1, 1, 0, 0], [1, 1, 1, 0, 1], [0, 0, 0, 0, 1, 0], [0, 0, 0, 0, 1, 1], [0, 0, 0, 1, 1, 0], [0, 0, 0, 1, 1, 1], [0, 0, 1, 1, 0, 0], [0, 0, 1, 1, 0, 1]]
  rels := [([2], []), ([0, 1, 1, 1, 0], [1]), ([1, 0, 1, 0, 1], [0, 1, 0])]
  terms := [⟨1, ⟨⟨0, 0, 0⟩, ⟨0, 0, 0⟩, ⟨1, 0, 0⟩⟩, [⟨1, 0, 0⟩, ⟨0, 0, 0⟩, ⟨0, 0, 0⟩]⟩,
    ⟨1, ⟨⟨0, 0, 0⟩, ⟨0, 0, 0⟩, ⟨0, 1, 0⟩⟩, [⟨0, 1, 0⟩, ⟨0, 0, 0⟩, ⟨0, 0, 0⟩]⟩,
    ⟨1, ⟨⟨0, 0, 0⟩, ⟨0, 0, 0⟩, ⟨0, 0, 1⟩⟩, [⟨0, 0, 1⟩, ⟨0, 0, 0⟩, ⟨0, 0, 0⟩]⟩,
    ⟨1, ⟨⟨0, 0, 0⟩, ⟨0, 1, 0⟩, ⟨0, 0, 0⟩⟩, [⟨0, 0, 0⟩, ⟨-1, 0, 0⟩, ⟨0, 0, 0⟩]⟩,
    ⟨2, ⟨⟨0, 0, 0⟩, ⟨1, -2, 0⟩, ⟨0, 0, 0⟩⟩, [⟨0, 0, 0⟩, ⟨-2, 0, 0⟩, ⟨-1, 0, 0⟩]⟩,
    ⟨2, ⟨⟨0, 0, 0⟩, ⟨0, -1, 1⟩, ⟨0, 0, 0⟩⟩, [⟨0, 0, 0⟩, ⟨3, 0, 0⟩, ⟨2, 0, 1⟩]⟩]
  s := ⟨⟨1, -1, 1, 1, 1, -1, -1, 1, 1⟩, ⟨0, 0, 0, 0, 0, 0, 0, 0, 0⟩, ⟨0, 0, 0, 0, 0, 0, 0, 0, 0⟩⟩
  n := 2
  m := 2
  reps := [⟨⟨0, 0, 0⟩, ⟨0, 0, 0⟩, ⟨0, 0, 0⟩⟩, ⟨⟨0, 0, 0⟩, ⟨0, -1, 1⟩, ⟨0, 0, 0⟩⟩, ⟨⟨0, 0, 0⟩, ⟨1, -2, 0⟩, ⟨0, 0, 0⟩⟩, ⟨⟨0, 0, 0⟩, ⟨1, -3, 1⟩, ⟨0, 0, 0⟩⟩]
  certs := [
    ⟨0, ⟨1, 0, 0, 0, 1, 0, 0, 0, 1⟩, ⟨0, 0, 0⟩, ⟨[0], [1], []⟩⟩,
    ⟨1, ⟨1, 0, 0, 0, 1, 0, 0, 0, 1⟩, ⟨0, 0, 0⟩, ⟨[0], [1], []⟩⟩,
    ⟨2, ⟨1, 0, 0, 0, 1, 0, 0, 0, 1⟩, ⟨0, 0, 0⟩, ⟨[0], [1], []⟩⟩,
    ⟨3, ⟨1, 0, 0, 0, 1, 0, 0, 0, 1⟩, ⟨0, 0, 0⟩, ⟨[0], [1], []⟩⟩]

/-- Class 62. -/
def k62 : Cls where
  gens := ⟨⟨-1, 1, 0, -1, 0, 0, 0, 0, 1⟩, ⟨0, 1, 0, 1, 0, 0, 0, 0, -1⟩, ⟨1, 0, 0, 0, 1, 0, 0, 0, 1⟩⟩
  words := [[], [0], [1], [0, 0], [0, 1], [1, 0]]
  rels := [([2], []), ([0, 0, 0], []), ([0, 1, 0], [1])]
  terms := [⟨1, ⟨⟨0, 0, 0⟩, ⟨0, 0, 0⟩, ⟨1, 0, 0⟩⟩, [⟨1, 0, 0⟩, ⟨0, 0, 0⟩, ⟨0, 0, 0⟩]⟩,
    ⟨1, ⟨⟨0, 0, 0⟩, ⟨0, 0, 0⟩, ⟨0, 1, 0⟩⟩, [⟨0, 1, 0⟩, ⟨0, 0, 0⟩, ⟨0, 0, 0⟩]⟩,
    ⟨1, ⟨⟨0, 0, 0⟩, ⟨0, 0, 0⟩, ⟨0, 0, 1⟩⟩, [⟨0, 0, 1⟩, ⟨0, 0, 0⟩, ⟨0, 0, 0⟩]⟩,
    ⟨1, ⟨⟨0, 0, 0⟩, ⟨0, 1, 0⟩, ⟨0, 0, 0⟩⟩, [⟨0, 0, 0⟩, ⟨0, 0, 0⟩, ⟨1, 0, 0⟩]⟩,
    ⟨1, ⟨⟨0, 1, 0⟩, ⟨0, 1, 0⟩, ⟨0, 0, 0⟩⟩, [⟨0, 0, 0⟩, ⟨0, 0, 0⟩, ⟨-1, -1, 0⟩]⟩,
    ⟨3, ⟨⟨0, 0, 1⟩, ⟨0, 0, 0⟩, ⟨0, 0, 0⟩⟩, [⟨0, 0, 0⟩, ⟨0, 0, 1⟩, ⟨0, 0, 0⟩]⟩]
  s := ⟨⟨6, 0, 0, 6, 0, 0, 0, 0, 0⟩, ⟨-6, 0, 0, -12, 0, 0, 0, 0, 3⟩, ⟨0, 0, 0, 0, 0, 0, 0, 0, 0⟩⟩
  n := 6
  m := 6
  reps := [⟨⟨0, 0, 0⟩, ⟨0, 0, 0⟩, ⟨0, 0, 0⟩⟩, ⟨⟨0, 0, 2⟩, ⟨0, 0, 0⟩, ⟨0, 0, 0⟩⟩, ⟨⟨0, 0, 4⟩, ⟨0, 0, 0⟩, ⟨0, 0, 0⟩⟩]
  certs := [
    ⟨0, ⟨1, 0, 0, 0, 1, 0, 0, 0, 1⟩, ⟨0, 0, 0⟩, ⟨[0], [1], []⟩⟩,
    ⟨1, ⟨1, 0, 0, 0, 1, 0, 0, 0, 1⟩, ⟨0, 0, 0⟩, ⟨[0], [1], []⟩⟩,
    ⟨2, ⟨1, 0, 0, 0, 1, 0, 0, 0, 1⟩, ⟨0, 0, 0⟩, ⟨[0], [1], []⟩⟩]

/-- Class 63. -/
def k63 : Cls where
  gens := ⟨⟨0, 1, 0, -1, 1, 0, 0, 0, 1⟩, ⟨1, 0, 0, 0, 1, 0, 0, 0, 1⟩, ⟨1, 0, 0, 0, 1, 0, 0, 0, 1⟩⟩
  words := [[], [0], [0, 0], [0, 0, 0], [0, 0, 0, 0], [0, 0, 0, 0, 0]]
  rels := [([1], []), ([2], []), ([0, 0, 0, 0, 0, 0], [])]
  terms := [⟨1, ⟨⟨0, 0, 0⟩, ⟨1, 0, 0⟩, ⟨0, 0, 0⟩⟩, [⟨1, 0, 0⟩, ⟨0, 0, 0⟩, ⟨0, 0, 0⟩]⟩,
    ⟨1, ⟨⟨0, 0, 0⟩, ⟨0, 1, 0⟩, ⟨0, 0, 0⟩⟩, [⟨0, 1, 0⟩, ⟨0, 0, 0⟩, ⟨0, 0, 0⟩]⟩,
    ⟨1, ⟨⟨0, 0, 0⟩, ⟨0, 0, 1⟩, ⟨0, 0, 0⟩⟩, [⟨0, 0, 1⟩, ⟨0, 0, 0⟩, ⟨0, 0, 0⟩]⟩,
    ⟨1, ⟨⟨0, 0, 0⟩, ⟨0, 0, 0⟩, ⟨1, 0, 0⟩⟩, [⟨0, 0, 0⟩, ⟨1, 0, 0⟩, ⟨0, 0, 0⟩]⟩,
    ⟨1, ⟨⟨0, 0, 0⟩, ⟨0, 0, 0⟩, ⟨0, 1, 0⟩⟩, [⟨0, 0, 0⟩, ⟨0, 1, 0⟩, ⟨0, 0, 0⟩]⟩,
    ⟨1, ⟨⟨0, 0, 0⟩, ⟨0, 0, 0⟩, ⟨0, 0, 1⟩⟩, [⟨0, 0, 0⟩, ⟨0, 0, 1⟩, ⟨0, 0, 0⟩]⟩,
    ⟨6, ⟨⟨0, 0, 1⟩, ⟨0, 0, 0⟩, ⟨0, 0, 0⟩⟩, [⟨0, 0, 0⟩, ⟨0, 0, 0⟩, ⟨0, 0, 1⟩]⟩]
  s := ⟨⟨0, 6, 0, -6, 6, 0, 0, 0, 0⟩, ⟨0, 0, 0, 0, 0, 0, 0, 0, 0⟩, ⟨0, 0, 0, 0, 0, 0, 0, 0, 0⟩⟩
  n := 6
  m := 6
  reps := [⟨⟨0, 0, 0⟩, ⟨0, 0, 0⟩, ⟨0, 0, 0⟩⟩, ⟨⟨0, 0, 1⟩, ⟨0, 0, 0⟩, ⟨0, 0, 0⟩⟩, ⟨⟨0, 0, 2⟩, ⟨0, 0, 0⟩, ⟨0, 0, 0⟩⟩, ⟨⟨0, 0, 3⟩, ⟨0, 0, 0⟩, ⟨0, 0, 0⟩⟩, ⟨⟨0, 0, 4⟩, ⟨0, 0, 0⟩, ⟨0, 0, 0⟩⟩, ⟨⟨0, 0, 5⟩, ⟨0, 0, 0⟩, ⟨0, 0, 0⟩⟩]
  certs := [
    ⟨0, ⟨1, 0, 0, 0, 1, 0, 0, 0, 1⟩, ⟨0, 0, 0⟩, ⟨[0], [], []⟩⟩,
    ⟨1, ⟨1, 0, 0, 0, 1, 0, 0, 0, 1⟩, ⟨0, 0, 0⟩, ⟨[0], [], []⟩⟩,
    ⟨2, ⟨1, 0, 0, 0, 1, 0, 0, 0, 1⟩, ⟨0, 0, 0⟩, ⟨[0], [], []⟩⟩,
    ⟨3, ⟨1, 0, 0, 0, 1, 0, 0, 0, 1⟩, ⟨0, 0, 0⟩, ⟨[0], [], []⟩⟩,
    ⟨4, ⟨1, 0, 0, 0, 1, 0, 0, 0, 1⟩, ⟨0, 0, 0⟩, ⟨[0], [], []⟩⟩,
    ⟨5, ⟨1, 0, 0, 0, 1, 0, 0, 0, 1⟩, ⟨0, 0, 0⟩, ⟨[0], [], []⟩⟩]

/-- Class 64. -/
def k64 : Cls where
  gens := ⟨⟨-1, 1, 0, -1, 0, 0, 0, 0, -1⟩, ⟨1, 0, 0, 0, 1, 0, 0, 0, 1⟩, ⟨1, 0, 0, 0, 1, 0, 0, 0, 1⟩⟩
  words := [[], [0], [0, 0], [0, 0, 0], [0, 0, 0, 0], [0, 0, 0, 0, 0]]
  rels := [([1], []), ([2], [])]
  terms := [⟨1, ⟨⟨0, 0, 0⟩, ⟨1, 0, 0⟩, ⟨0, 0, 0⟩⟩, [⟨1, 0, 0⟩, ⟨0, 0, 0⟩]⟩,
    ⟨1, ⟨⟨0, 0, 0⟩, ⟨0, 1, 0⟩, ⟨0, 0, 0⟩⟩, [⟨0, 1, 0⟩, ⟨0, 0, 0⟩]⟩,
    ⟨1, ⟨⟨0, 0, 0⟩, ⟨0, 0, 1⟩, ⟨0, 0, 0⟩⟩, [⟨0, 0, 1⟩, ⟨0, 0, 0⟩]⟩,
    ⟨1, ⟨⟨0, 0, 0⟩, ⟨0, 0, 0⟩, ⟨1, 0, 0⟩⟩, [⟨0, 0, 0⟩, ⟨1, 0, 0⟩]⟩,
    ⟨1, ⟨⟨0, 0, 0⟩, ⟨0, 0, 0⟩, ⟨0, 1, 0⟩⟩, [⟨0, 0, 0⟩, ⟨0, 1, 0⟩]⟩,
    ⟨1, ⟨⟨0, 0, 0⟩, ⟨0, 0, 0⟩, ⟨0, 0, 1⟩⟩, [⟨0, 0, 0⟩, ⟨0, 0, 1⟩]⟩]
  s := ⟨⟨2, 2, 0, -2, 4, 0, 0, 0, 3⟩, ⟨0, 0, 0, 0, 0, 0, 0, 0, 0⟩, ⟨0, 0, 0, 0, 0, 0, 0, 0, 0⟩⟩
  n := 6
  m := 6
  reps := [⟨⟨0, 0, 0⟩, ⟨0, 0, 0⟩, ⟨0, 0, 0⟩⟩]
  certs := [
    ⟨0, ⟨1, 0, 0, 0, 1, 0, 0, 0, 1⟩, ⟨0, 0, 0⟩, ⟨[0], [], []⟩⟩]

/-- Class 65. -/
def k65 : Cls where
  gens := ⟨⟨-1, 1, 0, -1, 0, 0, 0, 0, 1⟩, ⟨0, -1, 0, -1, 0, 0, 0, 0, 1⟩, ⟨1, 0, 0, 0, 1, 0, 0, 0, 1⟩⟩
  words := [[], [0], [1], [0, 0], [0, 1], [1, 0]]
  rels := [([2], []), ([1, 1], []), ([0, 0, 0], []), ([0, 1, 0], [1])]
  terms := [⟨1, ⟨⟨0, 0, 0⟩, ⟨0, 0, 0⟩, ⟨1, 0, 0⟩⟩, [⟨1, 0, 0⟩, ⟨0, 0, 0⟩, ⟨0, 0, 0⟩, ⟨0, 0, 0⟩]⟩,
    ⟨1, ⟨⟨0, 0, 0⟩, ⟨0, 0, 0⟩, ⟨0, 1, 0⟩⟩, [⟨0, 1, 0⟩, ⟨0, 0, 0⟩, ⟨0, 0, 0⟩, ⟨0, 0, 0⟩]⟩,
    ⟨1, ⟨⟨0, 0, 0⟩, ⟨0, 0, 0⟩, ⟨0, 0, 1⟩⟩, [⟨0, 0, 1⟩, ⟨0, 0, 0⟩, ⟨0, 0, 0⟩, ⟨0, 0, 0⟩]⟩,
    ⟨1, ⟨⟨0, 0, 0⟩, ⟨1, 0, 0⟩, ⟨0, 0, 0⟩⟩, [⟨0, 0, 0⟩, ⟨1, 0, 0⟩, ⟨0, 0, 0⟩, ⟨0, 0, 0⟩]⟩,
    ⟨1, ⟨⟨0, 0, 0⟩, ⟨1, 1, 0⟩, ⟨0, 0, 0⟩⟩, [⟨0, 0, 0⟩, ⟨-2, 0, 0⟩, ⟨0, 0, 0⟩, ⟨-1, 0, 0⟩]⟩,
    ⟨1, ⟨⟨0, 0, 1⟩, ⟨0, 0, -1⟩, ⟨0, 0, 0⟩⟩, [⟨0, 0, 0⟩, ⟨0, 0, 1⟩, ⟨0, 0, 1⟩, ⟨0, 0, 0⟩]⟩,
    ⟨2, ⟨⟨0, 0, -2⟩, ⟨0, 0, 3⟩, ⟨0, 0, 0⟩⟩, [⟨0, 0, 0⟩, ⟨0, 0, 1⟩, ⟨0, 0, 0⟩, ⟨0, 0, 1⟩]⟩]
  s := ⟨⟨2, 2, 0, -2, 4, 0, 0, 0, 0⟩, ⟨0, 0, 0, 0, 0, 0, 0, 0, 0⟩, ⟨0, 0, 0, 0, 0, 0, 0, 0, 0⟩⟩
  n := 6
  m := 6
  reps := [⟨⟨0, 0, 0⟩, ⟨0, 0, 0⟩, ⟨0, 0, 0⟩⟩, ⟨⟨0, 0, -6⟩, ⟨0, 0, 9⟩, ⟨0, 0, 0⟩⟩]
  certs := [
    ⟨0, ⟨1, 0, 0, 0, 1, 0, 0, 0, 1⟩, ⟨0, 0, 0⟩, ⟨[0], [1], []⟩⟩,
    ⟨1, ⟨1, 0, 0, 0, 1, 0, 0, 0, 1⟩, ⟨0, 0, 0⟩, ⟨[0], [1], []⟩⟩]

/-- Class 66. -/
def k66 : Cls where
  gens := ⟨⟨-1, 1, 0, -1, 0, 0, 0, 0, -1⟩, ⟨0, 1, 0, 1, 0, 0, 0, 0, -1⟩, ⟨1, 0, 0, 0, 1, 0, 0, 0, 1⟩⟩
  words := [[], [0], [1], [0, 0], [0, 1], [1, 0], [0, 0, 0], [0, 0, 1], [1, 0, 0], [1, 0, 1], [0, 0, 0, 0], [0, 0, 0, 1]]
  rels := [([2], []), ([1, 1], []), ([1, 0, 1, 0], [])]
  terms := [⟨1, ⟨⟨0, 0, 0⟩, ⟨0, 0, 0⟩, ⟨1, 0, 0⟩⟩, [⟨1, 0, 0⟩, ⟨0, 0, 0⟩, ⟨0, 0, 0⟩]⟩,
    ⟨1, ⟨⟨0, 0, 0⟩, ⟨0, 0, 0⟩, ⟨0, 1, 0⟩⟩, [⟨0, 1, 0⟩, ⟨0, 0, 0⟩, ⟨0, 0, 0⟩]⟩,
    ⟨1, ⟨⟨0, 0, 0⟩, ⟨0, 0, 0⟩, ⟨0, 0, 1⟩⟩, [⟨0, 0, 1⟩, ⟨0, 0, 0⟩, ⟨0, 0, 0⟩]⟩,
    ⟨1, ⟨⟨0, 0, 0⟩, ⟨1, 0, 0⟩, ⟨0, 0, 0⟩⟩, [⟨0, 0, 0⟩, ⟨1, 0, 0⟩, ⟨0, 0, 0⟩]⟩,
    ⟨1, ⟨⟨0, 1, 0⟩, ⟨0, 0, 0⟩, ⟨0, 0, 0⟩⟩, [⟨0, 0, 0⟩, ⟨-1, 0, 0⟩, ⟨0, -1, 0⟩]⟩,
    ⟨2, ⟨⟨0, 0, 0⟩, ⟨0, 0, 1⟩, ⟨0, 0, 0⟩⟩, [⟨0, 0, 0⟩, ⟨0, 0, 0⟩, ⟨0, 0, 1⟩]⟩]
  s := ⟨⟨2, 0, 0, 2, 0, 0, 0, 0, 1⟩, ⟨0, 2, 0, 0, 4, 0, 0, 0, 0⟩, ⟨0, 0, 0, 0, 0, 0, 0, 0, 0⟩⟩
  n := 2
  m := 2
  reps := [⟨⟨0, 0, 0⟩, ⟨0, 0, 0⟩, ⟨0, 0, 0⟩⟩, ⟨⟨0, 0, 0⟩, ⟨0, 0, 1⟩, ⟨0, 0, 0⟩⟩]
  certs := [
    ⟨0, ⟨1, 0, 0, 0, 1, 0, 0, 0, 1⟩, ⟨0, 0, 0⟩, ⟨[0], [1], []⟩⟩,
    ⟨1, ⟨1, 0, 0, 0, 1, 0, 0, 0, 1⟩, ⟨0, 0, 0⟩, ⟨[0], [1], []⟩⟩]

/-- Class 67. -/
def k67 : Cls where
  gens := ⟨⟨-1, 1, 0, -1, 0, 0, 0, 0, -1⟩, ⟨0, 1, 0, -1, 1, 0, 0, 0, -1⟩, ⟨1, 0, 0, 0, 1, 0, 0, 0, 1⟩⟩
  words := [[], [0], [1], [0, 0], [0, 1], [1, 1], [0, 0, 0], [0, 0, 1], [0, 1, 1], [1, 1, 1], [0, 0, 0, 1], [0, 1, 1, 1]]
  rels := [([2], []), ([1, 0], [0, 1])]
  terms := [⟨1, ⟨⟨0, 0, 0⟩, ⟨0, 0, 0⟩, ⟨1, 0, 0⟩⟩, [⟨1, 0, 0⟩, ⟨0, 0, 0⟩]⟩,
    ⟨1, ⟨⟨0, 0, 0⟩, ⟨0, 0, 0⟩, ⟨0, 1, 0⟩⟩, [⟨0, 1, 0⟩, ⟨0, 0, 0⟩]⟩,
    ⟨1, ⟨⟨0, 0, 0⟩, ⟨0, 0, 0⟩, ⟨0, 0, 1⟩⟩, [⟨0, 0, 1⟩, ⟨0, 0, 0⟩]⟩,
    ⟨1, ⟨⟨0, 0, 0⟩, ⟨0, 1, 0⟩, ⟨0, 0, 0⟩⟩, [⟨0, 0, 0⟩, ⟨-1, 0, 0⟩]⟩,
    ⟨1, ⟨⟨0, 1, 0⟩, ⟨0, 1, 0⟩, ⟨0, 0, 0⟩⟩, [⟨0, 0, 0⟩, ⟨1, 1, 0⟩]⟩,
    ⟨2, ⟨⟨0, 0, 0⟩, ⟨0, 0, 1⟩, ⟨0, 0, 0⟩⟩, [⟨0, 0, 0⟩, ⟨0, 0, 1⟩]⟩]
  s := ⟨⟨2, 0, 0, 2, 0, 0, 0, 0, 1⟩, ⟨-2, 0, 0, -4, 0, 0, 0, 0, 0⟩, ⟨0, 0, 0, 0, 0, 0, 0, 0, 0⟩⟩
  n := 2
  m := 2
  reps := [⟨⟨0, 0, 0⟩, ⟨0, 0, 0⟩, ⟨0, 0, 0⟩⟩, ⟨⟨0, 0, 0⟩, ⟨0, 0, 1⟩, ⟨0, 0, 0⟩⟩]
  certs := [
    ⟨0, ⟨1, 0, 0, 0, 1, 0, 0, 0, 1⟩, ⟨0, 0, 0⟩, ⟨[0], [1], []⟩⟩,
    ⟨1, ⟨1, 0, 0, 0, 1, 0, 0, 0, 1⟩, ⟨0, 0, 0⟩, ⟨[0], [1], []⟩⟩]

/-- Class 68. -/
def k68 : Cls where
  gens := ⟨⟨0, 1, 0, -1, 1, 0, 0, 0, 1⟩, ⟨0, -1, 0, -1, 0, 0, 0, 0, 1⟩, ⟨1, 0, 0, 0, 1, 0, 0, 0, 1⟩⟩
  words := [[], [0], [1], [0, 0], [0, 1], [1, 0], [0, 0, 0], [0, 0, 1], [1, 0, 0], [1, 0, 1], [0, 0, 0, 0], [0, 0, 0, 1]]
  rels := [([2], []), ([1, 1], []), ([1, 0, 1, 0], [])]
  terms := [⟨1, ⟨⟨0, 0, 0⟩, ⟨0, 0, 0⟩, ⟨1, 0, 0⟩⟩, [⟨1, 0, 0⟩, ⟨0, 0, 0⟩, ⟨0, 0, 0⟩]⟩,
    ⟨1, ⟨⟨0, 0, 0⟩, ⟨0, 0, 0⟩, ⟨0, 1, 0⟩⟩, [⟨0, 1, 0⟩, ⟨0, 0, 0⟩, ⟨0, 0, 0⟩]⟩,
    ⟨1, ⟨⟨0, 0, 0⟩, ⟨0, 0, 0⟩, ⟨0, 0, 1⟩⟩, [⟨0, 0, 1⟩, ⟨0, 0, 0⟩, ⟨0, 0, 0⟩]⟩,
    ⟨1, ⟨⟨0, 0, 0⟩, ⟨1, 0, 0⟩, ⟨0, 0, 0⟩⟩, [⟨0, 0, 0⟩, ⟨1, 0, 0⟩, ⟨0, 0, 0⟩]⟩,
    ⟨1, ⟨⟨0, 0, 0⟩, ⟨1, 1, 0⟩, ⟨0, 0, 0⟩⟩, [⟨0, 0, 0⟩, ⟨-2, 0, 0⟩, ⟨1, 0, 0⟩]⟩,
    ⟨2, ⟨⟨0, 0, 0⟩, ⟨0, 0, 1⟩, ⟨0, 0, 0⟩⟩, [⟨0, 0, 0⟩, ⟨0, 0, 1⟩, ⟨0, 0, 0⟩]⟩,
    ⟨2, ⟨⟨0, 0, 1⟩, ⟨0, 0, 0⟩, ⟨0, 0, 0⟩⟩, [⟨0, 0, 0⟩, ⟨0, 0, -1⟩, ⟨0, 0, 1⟩]⟩]
  s := ⟨⟨0, 2, 0, -2, 2, 0, 0, 0, 0⟩, ⟨0, 0, 0, 0, 0, 0, 0, 0, 0⟩, ⟨0, 0, 0, 0, 0, 0, 0, 0, 0⟩⟩
  n := 2
  m := 2
  reps := [⟨⟨0, 0, 0⟩, ⟨0, 0, 0⟩, ⟨0, 0, 0⟩⟩, ⟨⟨0, 0, 1⟩, ⟨0, 0, 0⟩, ⟨0, 0, 0⟩⟩, ⟨⟨0, 0, 0⟩, ⟨0, 0, 1⟩, ⟨0, 0, 0⟩⟩, ⟨⟨0, 0, 1⟩, ⟨0, 0, 1⟩, ⟨0, 0, 0⟩⟩]
  certs := [
    ⟨0, ⟨1, 0, 0, 0, 1, 0, 0, 0, 1⟩, ⟨0, 0, 0⟩, ⟨[0], [1], []⟩⟩,
    ⟨1, ⟨1, 0, 0, 0, 1, 0, 0, 0, 1⟩, ⟨0, 0, 0⟩, ⟨[0], [1], []⟩⟩,
    ⟨2, ⟨1, 0, 0, 0, 1, 0, 0, 0, 1⟩, ⟨0, 0, 0⟩, ⟨[0], [1], []⟩⟩,
    ⟨3, ⟨1, 0, 0, 0, 1, 0, 0, 0, 1⟩, ⟨0, 0, 0⟩, ⟨[0], [1], []⟩⟩]

/-- Class 69. -/
def k69 : Cls where
  gens := ⟨⟨0, 1, 0, -1, 1, 0, 0, 0, -1⟩, ⟨0, -1, 0, -1, 0, 0, 0, 0, 1⟩, ⟨1, 0, 0, 0, 1, 0, 0, 0, 1⟩⟩
  words := [[], [0], [1], [0, 0], [0, 1], [1, 0], [0, 0, 0], [0, 0, 1], [1, 0, 0], [1, 0, 1], [0, 0, 0, 0], [0, 0, 0, 1]]
  rels := [([2], []), ([1, 1], []), ([1, 0, 1, 0], [])]
  terms := [⟨1, ⟨⟨0, 0, 0⟩, ⟨0, 0, 0⟩, ⟨1, 0, 0⟩⟩, [⟨1, 0, 0⟩, ⟨0, 0, 0⟩, ⟨0, 0, 0⟩]⟩,
    ⟨1, ⟨⟨0, 0, 0⟩, ⟨0, 0, 0⟩, ⟨0, 1, 0⟩⟩, [⟨0, 1, 0⟩, ⟨0, 0, 0⟩, ⟨0, 0, 0⟩]⟩,
    ⟨1, ⟨⟨0, 0, 0⟩, ⟨0, 0, 0⟩, ⟨0, 0, 1⟩⟩, [⟨0, 0, 1⟩, ⟨0, 0, 0⟩, ⟨0, 0, 0⟩]⟩,
    ⟨1, ⟨⟨0, 0, 0⟩, ⟨1, 0, 0⟩, ⟨0, 0, 0⟩⟩, [⟨0, 0, 0⟩, ⟨1, 0, 0⟩, ⟨0, 0, 0⟩]⟩,
    ⟨1, ⟨⟨0, 0, 0⟩, ⟨1, 1, 0⟩, ⟨0, 0, 0⟩⟩, [⟨0, 0, 0⟩, ⟨-2, 0, 0⟩, ⟨1, 0, 0⟩]⟩,
    ⟨2, ⟨⟨0, 0, 0⟩, ⟨0, 0, 1⟩, ⟨0, 0, 0⟩⟩, [⟨0, 0, 0⟩, ⟨0, 0, 1⟩, ⟨0, 0, 0⟩]⟩]
  s := ⟨⟨0, 2, 0, -2, 2, 0, 0, 0, 1⟩, ⟨0, 0, 0, 0, 0, 0, 0, 0, 0⟩, ⟨0, 0, 0, 0, 0, 0, 0, 0, 0⟩⟩
  n := 2
  m := 2
  reps := [⟨⟨0, 0, 0⟩, ⟨0, 0, 0⟩, ⟨0, 0, 0⟩⟩, ⟨⟨0, 0, 0⟩, ⟨0, 0, 1⟩, ⟨0, 0, 0⟩⟩]
  certs := [
    ⟨0, ⟨1, 0, 0, 0, 1, 0, 0, 0, 1⟩, ⟨0, 0, 0⟩, ⟨[0], [1], []⟩⟩,
    ⟨1, ⟨1, 0, 0, 0, 1, 0, 0, 0, 1⟩, ⟨0, 0, 0⟩, ⟨[0], [1], []⟩⟩]

/-- Class 70. -/
def k70 : Cls where
  gens := ⟨⟨0, 1, 0, -1, 1, 0, 0, 0, 1⟩, ⟨0, -1, 0, -1, 0, 0, 0, 0, -1⟩, ⟨1, 0, 0, 0, 1, 0, 0, 0, 1⟩⟩
  words := [[], [0], [1], [0, 0], [0, 1], [1, 0], [0, 0, 0], [0, 0, 1], [1, 0, 0], [1, 0, 1], [0, 0, 0, 0], [0, 0, 0, 1]]
  rels := [([2], []), ([1, 1], []), ([0, 0, 0, 0, 1], [1, 0, 0])]
  terms := [⟨1, ⟨⟨0, 0, 0⟩, ⟨0, 0, 0⟩, ⟨1, 0, 0⟩⟩, [⟨1, 0, 0⟩, ⟨0, 0, 0⟩, ⟨0, 0, 0⟩]⟩,
    ⟨1, ⟨⟨0, 0, 0⟩, ⟨0, 0, 0⟩, ⟨0, 1, 0⟩⟩, [⟨0, 1, 0⟩, ⟨0, 0, 0⟩, ⟨0, 0, 0⟩]⟩,
    ⟨1, ⟨⟨0, 0, 0⟩, ⟨0, 0, 0⟩, ⟨0, 0, 1⟩⟩, [⟨0, 0, 1⟩, ⟨0, 0, 0⟩, ⟨0, 0, 0⟩]⟩,
    ⟨1, ⟨⟨0, 0, 0⟩, ⟨1, 0, 0⟩, ⟨0, 0, 0⟩⟩, [⟨0, 0, 0⟩, ⟨1, 0, 0⟩, ⟨0, 0, 0⟩]⟩,
    ⟨1, ⟨⟨0, 0, 0⟩, ⟨1, 1, 0⟩, ⟨0, 0, 0⟩⟩, [⟨0, 0, 0⟩, ⟨1, 0, 0⟩, ⟨0, -1, 0⟩]⟩,
    ⟨6, ⟨⟨0, 0, 1⟩, ⟨0, 0, 0⟩, ⟨0, 0, 0⟩⟩, [⟨0, 0, 0⟩, ⟨0, 0, 0⟩, ⟨0, 0, 1⟩]⟩]
  s := ⟨⟨0, 6, 0, -6, 6, 0, 0, 0, 0⟩, ⟨0, 0, 0, 0, 0, 0, 0, 0, 3⟩, ⟨0, 0, 0, 0, 0, 0, 0, 0, 0⟩⟩
  n := 6
  m := 6
  reps := [⟨⟨0, 0, 0⟩, ⟨0, 0, 0⟩, ⟨0, 0, 0⟩⟩, ⟨⟨0, 0, 1⟩, ⟨0, 0, 0⟩, ⟨0, 0, 0⟩⟩, ⟨⟨0, 0, 2⟩, ⟨0, 0, 0⟩, ⟨0, 0, 0⟩⟩, ⟨⟨0, 0, 3⟩, ⟨0, 0, 0⟩, ⟨0, 0, 0⟩⟩, ⟨⟨0, 0, 4⟩, ⟨0, 0, 0⟩, ⟨0, 0, 0⟩⟩, ⟨⟨0, 0, 5⟩, ⟨0, 0, 0⟩, ⟨0, 0, 0⟩⟩]
  certs := [
    ⟨0, ⟨1, 0, 0, 0, 1, 0, 0, 0, 1⟩, ⟨0, 0, 0⟩, ⟨[0], [1], []⟩⟩,
    ⟨1, ⟨1, 0, 0, 0, 1, 0, 0, 0, 1⟩, ⟨0, 0, 0⟩, ⟨[0], [1], []⟩⟩,
    ⟨2, ⟨1, 0, 0, 0, 1, 0, 0, 0, 1⟩, ⟨0, 0, 0⟩, ⟨[0], [1], []⟩⟩,
    ⟨3, ⟨1, 0, 0, 0, 1, 0, 0, 0, 1⟩, ⟨0, 0, 0⟩, ⟨[0], [1], []⟩⟩,
    ⟨4, ⟨1, 0, 0, 0, 1, 0, 0, 0, 1⟩, ⟨0, 0, 0⟩, ⟨[0], [1], []⟩⟩,
    ⟨5, ⟨1, 0, 0, 0, 1, 0, 0, 0, 1⟩, ⟨0, 0, 0⟩, ⟨[0], [1], []⟩⟩]

/-- Class 71. -/
def k71 : Cls where
  gens := ⟨⟨-1, 1, 0, -1, 0, 0, 0, 0, -1⟩, ⟨0, -1, 0, -1, 0, 0, 0, 0, -1⟩, ⟨1, 0, 0, 0, 1, 0, 0, 0, 1⟩⟩
  words := [[], [0], [1], [0, 0], [0, 1], [1, 0], [0, 0, 0], [0, 0, 1], [1, 0, 0], [1, 0, 1], [0, 0, 0, 0], [0, 0, 0, 1]]
  rels := [([2], []), ([1, 1], []), ([1, 0, 1, 0], [])]
  terms := [⟨1, ⟨⟨0, 0, 0⟩, ⟨0, 0, 0⟩, ⟨1, 0, 0⟩⟩, [⟨1, 0, 0⟩, ⟨0, 0, 0⟩, ⟨0, 0, 0⟩]⟩,
    ⟨1, ⟨⟨0, 0, 0⟩, ⟨0, 0, 0⟩, ⟨0, 1, 0⟩⟩, [⟨0, 1, 0⟩, ⟨0, 0, 0⟩, ⟨0, 0, 0⟩]⟩,
    ⟨1, ⟨⟨0, 0, 0⟩, ⟨0, 0, 0⟩, ⟨0, 0, 1⟩⟩, [⟨0, 0, 1⟩, ⟨0, 0, 0⟩, ⟨0, 0, 0⟩]⟩,
    ⟨1, ⟨⟨0, 0, 0⟩, ⟨1, 0, 0⟩, ⟨0, 0, 0⟩⟩, [⟨0, 0, 0⟩, ⟨1, 0, 0⟩, ⟨0, 0, 0⟩]⟩,
    ⟨1, ⟨⟨0, 0, 0⟩, ⟨1, 1, 0⟩, ⟨0, 0, 0⟩⟩, [⟨0, 0, 0⟩, ⟨-1, 0, 0⟩, ⟨0, 1, 0⟩]⟩,
    ⟨2, ⟨⟨0, 0, 0⟩, ⟨0, 0, 1⟩, ⟨0, 0, 0⟩⟩, [⟨0, 0, 0⟩, ⟨0, 0, 0⟩, ⟨0, 0, 1⟩]⟩]
  s := ⟨⟨2, 2, 0, -2, 4, 0, 0, 0, 3⟩, ⟨0, 0, 0, 0, 0, 0, 0, 0, 0⟩, ⟨0, 0, 0, 0, 0, 0, 0, 0, 0⟩⟩
  n := 6
  m := 6
  reps := [⟨⟨0, 0, 0⟩, ⟨0, 0, 0⟩, ⟨0, 0, 0⟩⟩, ⟨⟨0, 0, 0⟩, ⟨0, 0, 3⟩, ⟨0, 0, 0⟩⟩]
  certs := [
    ⟨0, ⟨1, 0, 0, 0, 1, 0, 0, 0, 1⟩, ⟨0, 0, 0⟩, ⟨[0], [1], []⟩⟩,
    ⟨1, ⟨1, 0, 0, 0, 1, 0, 0, 0, 1⟩, ⟨0, 0, 0⟩, ⟨[0], [1], []⟩⟩]

/-- Class 72. -/
def k72 : Cls where
  gens := ⟨⟨-1, 1, 0, -1, 0, 0, 0, 0, -1⟩, ⟨0, 1, 0, -1, 1, 0, 0, 0, -1⟩, ⟨0, -1, 0, -1, 0, 0, 0, 0, -1⟩⟩
  words := [[], [0], [1], [2], [0, 0], [0, 1], [0, 2], [1, 1], [1, 2], [2, 0], [2, 1], [0, 0, 0], [0, 0, 1], [0, 0, 2], [0, 1, 1], [0, 1, 2], [0, 2, 1], [1, 1, 1], [1, 1, 2], [1, 2, 0], [0, 0, 0, 1], [0, 0, 0, 2], [0, 0, 2, 1], [0, 1, 1, 1]]
  rels := [([0, 2, 0], [2]), ([1, 2, 1], [2]), ([0, 1, 1, 0], [])]
  terms := [⟨1, ⟨⟨0, 1, 0⟩, ⟨0, 0, 0⟩, ⟨0, 0, 0⟩⟩, [⟨1, 0, 0⟩, ⟨0, 0, 0⟩, ⟨0, 0, 0⟩]⟩,
    ⟨1, ⟨⟨0, 2, 0⟩, ⟨0, 0, 0⟩, ⟨1, 0, 0⟩⟩, [⟨0, 0, 0⟩, ⟨-1, 0, 0⟩, ⟨0, 0, 0⟩]⟩,
    ⟨1, ⟨⟨0, 0, 0⟩, ⟨1, 0, 0⟩, ⟨0, 0, 0⟩⟩, [⟨0, 0, 0⟩, ⟨1, -1, 0⟩, ⟨0, 0, 0⟩]⟩,
    ⟨1, ⟨⟨1, 0, 0⟩, ⟨0, 0, 0⟩, ⟨0, 0, 0⟩⟩, [⟨1, 0, 0⟩, ⟨0, -2, 0⟩, ⟨1, 0, 0⟩]⟩,
    ⟨2, ⟨⟨0, 0, 1⟩, ⟨0, 0, 0⟩, ⟨0, 0, 0⟩⟩, [⟨0, 0, 1⟩, ⟨0, 0, 0⟩, ⟨0, 0, 0⟩]⟩,
    ⟨2, ⟨⟨0, 0, 0⟩, ⟨0, 0, 1⟩, ⟨0, 0, 0⟩⟩, [⟨0, 0, 0⟩, ⟨0, 0, 1⟩, ⟨0, 0, 0⟩]⟩]
  s := ⟨⟨0, 0, 0, 0, 0, 0, 0, 0, 0⟩, ⟨0, 2, 0, 0, -2, 0, 0, 0, 0⟩, ⟨0, 0, 0, 0, 2, 0, 0, 0, 1⟩⟩
  n := 2
  m := 2
  reps := [⟨⟨0, 0, 0⟩, ⟨0, 0, 0⟩, ⟨0, 0, 0⟩⟩, ⟨⟨0, 0, 0⟩, ⟨0, 0, 1⟩, ⟨0, 0, 0⟩⟩, ⟨⟨0, 0, 1⟩, ⟨0, 0, 0⟩, ⟨0, 0, 0⟩⟩, ⟨⟨0, 0, 1⟩, ⟨0, 0, 1⟩, ⟨0, 0, 0⟩⟩]
  certs := [
    ⟨0, ⟨1, 0, 0, 0, 1, 0, 0, 0, 1⟩, ⟨0, 0, 0⟩, ⟨[0], [1], [2]⟩⟩,
    ⟨1, ⟨1, 0, 0, 0, 1, 0, 0, 0, 1⟩, ⟨0, 0, 0⟩, ⟨[0], [1], [2]⟩⟩,
    ⟨2, ⟨1, 0, 0, 0, 1, 0, 0, 0, 1⟩, ⟨0, 0, 0⟩, ⟨[0], [1], [2]⟩⟩,
    ⟨3, ⟨1, 0, 0, 0, 1, 0, 0, 0, 1⟩, ⟨0, 0, 0⟩, ⟨[0], [1], [2]⟩⟩]

/-- All classes. -/
def classes : List Cls := [k00, k01, k02, k03, k04, k05, k06, k07, k08, k09, k10, k11, k12, k13, k14, k15, k16, k17, k18, k19, k20, k21, k22, k23, k24, k25, k26, k27, k28, k29, k30, k31, k32, k33, k34, k35, k36, k37, k38, k39, k40, k41, k42, k43, k44, k45, k46, k47, k48, k49, k50, k51, k52, k53, k54, k55, k56, k57, k58, k59, k60, k61, k62, k63, k64, k65, k66, k67, k68, k69, k70, k71, k72]

end Verif.Arith
