import Verif.Proofs.RowCheck

/-! Generated by tools/gen_rows.py; checked by the kernel. -/

namespace Verif

/-- Invariants for each lattice and set of rotations (untrusted; checked by `FunctionalTable.Good`). -/
def functionals : FunctionalTable := [
  (.P, 16416, [[(⟨-1, 0, 0, 0, 1, 0, 0, 0, -1⟩, ⟨0, 1, 0⟩)]]),
  (.P, 268451840, [[(⟨-1, 0, 0, 0, -1, 0, 0, 0, 1⟩, ⟨0, 0, 1⟩)]]),
  (.P, 8589950976, [[(⟨1, 0, 0, 0, -1, 0, 0, 0, -1⟩, ⟨1, 0, 0⟩)]]),
  (.P, 34359754752, [[(⟨1, 0, 0, 0, -1, 0, 0, 0, 1⟩, ⟨1, 0, 0⟩)],
    [(⟨1, 0, 0, 0, -1, 0, 0, 0, 1⟩, ⟨0, 0, 1⟩)]]),
  (.P, 20480, [[(⟨1, 0, 0, 0, 1, 0, 0, 0, -1⟩, ⟨0, 1, 0⟩)],
    [(⟨1, 0, 0, 0, 1, 0, 0, 0, -1⟩, ⟨1, 0, 0⟩)]]),
  (.P, 16512, [[(⟨-1, 0, 0, 0, 1, 0, 0, 0, 1⟩, ⟨0, 1, 0⟩)],
    [(⟨-1, 0, 0, 0, 1, 0, 0, 0, 1⟩, ⟨0, 0, 1⟩)]]),
  (.C, 34359754752, [[(⟨1, 0, 0, 0, -1, 0, 0, 0, 1⟩, ⟨0, 0, 1⟩)]]),
  (.A, 34359754752, [[(⟨1, 0, 0, 0, -1, 0, 0, 0, 1⟩, ⟨1, 0, 0⟩)]]),
  (.I, 34359754752, [[(⟨1, 0, 0, 0, -1, 0, 0, 0, 1⟩, ⟨1, 0, 1⟩)]]),
  (.A, 20480, [[(⟨1, 0, 0, 0, 1, 0, 0, 0, -1⟩, ⟨1, 0, 0⟩)]]),
  (.B, 20480, [[(⟨1, 0, 0, 0, 1, 0, 0, 0, -1⟩, ⟨0, 1, 0⟩)]]),
  (.I, 20480, [[(⟨1, 0, 0, 0, 1, 0, 0, 0, -1⟩, ⟨-1, 1, 0⟩)]]),
  (.B, 16512, [[(⟨-1, 0, 0, 0, 1, 0, 0, 0, 1⟩, ⟨0, 1, 0⟩)]]),
  (.C, 16512, [[(⟨-1, 0, 0, 0, 1, 0, 0, 0, 1⟩, ⟨0, 0, 1⟩)]]),
  (.I, 16512, [[(⟨-1, 0, 0, 0, 1, 0, 0, 0, 1⟩, ⟨0, 1, 1⟩)]]),
  (.P, 34426863648, [[(⟨-1, 0, 0, 0, -1, 0, 0, 0, -1⟩, ⟨-1, 0, 0⟩), (⟨-1, 0, 0, 0, 1, 0, 0, 0, -1⟩, ⟨1, 0, 0⟩)],
    [(⟨-1, 0, 0, 0, 1, 0, 0, 0, -1⟩, ⟨0, 1, 0⟩)],
    [(⟨-1, 0, 0, 0, -1, 0, 0, 0, -1⟩, ⟨0, 0, -1⟩), (⟨-1, 0, 0, 0, 1, 0, 0, 0, -1⟩, ⟨0, 0, 1⟩)]]),
  (.P, 335564800, [[(⟨-1, 0, 0, 0, -1, 0, 0, 0, -1⟩, ⟨-1, 0, 0⟩), (⟨-1, 0, 0, 0, -1, 0, 0, 0, 1⟩, ⟨1, 0, 0⟩)],
    [(⟨-1, 0, 0, 0, -1, 0, 0, 0, -1⟩, ⟨0, -1, 0⟩), (⟨-1, 0, 0, 0, -1, 0, 0, 0, 1⟩, ⟨0, 1, 0⟩)],
    [(⟨-1, 0, 0, 0, -1, 0, 0, 0, 1⟩, ⟨0, 0, 1⟩)]]),
  (.P, 8657059968, [[(⟨-1, 0, 0, 0, -1, 0, 0, 0, -1⟩, ⟨-1, 0, 0⟩), (⟨-1, 0, 0, 0, 1, 0, 0, 0, 1⟩, ⟨1, 0, 0⟩)],
    [(⟨-1, 0, 0, 0, 1, 0, 0, 0, 1⟩, ⟨0, 1, 0⟩)],
    [(⟨-1, 0, 0, 0, 1, 0, 0, 0, 1⟩, ⟨0, 0, 1⟩)]]),
  (.C, 34426863648, [[(⟨-1, 0, 0, 0, -1, 0, 0, 0, -1⟩, ⟨0, 0, 1⟩), (⟨-1, 0, 0, 0, 1, 0, 0, 0, -1⟩, ⟨0, 0, -1⟩)]]),
  (.A, 34426863648, [[(⟨-1, 0, 0, 0, -1, 0, 0, 0, -1⟩, ⟨-1, 0, 0⟩), (⟨-1, 0, 0, 0, 1, 0, 0, 0, -1⟩, ⟨1, 0, 0⟩)]]),
  (.I, 34426863648, [[(⟨-1, 0, 0, 0, -1, 0, 0, 0, -1⟩, ⟨-1, 0, -1⟩), (⟨-1, 0, 0, 0, 1, 0, 0, 0, -1⟩, ⟨1, 0, 1⟩)]]),
  (.A, 335564800, [[(⟨-1, 0, 0, 0, -1, 0, 0, 0, -1⟩, ⟨-1, 0, 0⟩), (⟨-1, 0, 0, 0, -1, 0, 0, 0, 1⟩, ⟨1, 0, 0⟩)]]),
  (.B, 335564800, [[(⟨-1, 0, 0, 0, -1, 0, 0, 0, -1⟩, ⟨0, -1, 0⟩), (⟨-1, 0, 0, 0, -1, 0, 0, 0, 1⟩, ⟨0, 1, 0⟩)]]),
  (.I, 335564800, [[(⟨-1, 0, 0, 0, -1, 0, 0, 0, -1⟩, ⟨1, -1, 0⟩), (⟨-1, 0, 0, 0, -1, 0, 0, 0, 1⟩, ⟨-1, 1, 0⟩)]]),
  (.B, 8657059968, [[(⟨-1, 0, 0, 0, 1, 0, 0, 0, 1⟩, ⟨0, 1, 0⟩)]]),
  (.C, 8657059968, [[(⟨-1, 0, 0, 0, 1, 0, 0, 0, 1⟩, ⟨0, 0, 1⟩)]]),
  (.I, 8657059968, [[(⟨-1, 0, 0, 0, 1, 0, 0, 0, 1⟩, ⟨0, 1, 1⟩)]]),
  (.P, 8858386464, [[(⟨-1, 0, 0, 0, -1, 0, 0, 0, 1⟩, ⟨-1, 0, 0⟩), (⟨-1, 0, 0, 0, 1, 0, 0, 0, -1⟩, ⟨1, 0, 0⟩)],
    [(⟨-1, 0, 0, 0, 1, 0, 0, 0, -1⟩, ⟨0, 1, 0⟩)],
    [(⟨-1, 0, 0, 0, -1, 0, 0, 0, 1⟩, ⟨0, 0, 1⟩)]]),
  (.C, 8858386464, [[(⟨-1, 0, 0, 0, -1, 0, 0, 0, 1⟩, ⟨0, 0, 1⟩)]]),
  (.A, 8858386464, [[(⟨-1, 0, 0, 0, -1, 0, 0, 0, 1⟩, ⟨-1, 0, 0⟩), (⟨-1, 0, 0, 0, 1, 0, 0, 0, -1⟩, ⟨1, 0, 0⟩)]]),
  (.B, 8858386464, [[(⟨-1, 0, 0, 0, 1, 0, 0, 0, -1⟩, ⟨0, 1, 0⟩)]]),
  (.I, 8858386464, [[(⟨-1, 0, 0, 0, -1, 0, 0, 0, 1⟩, ⟨1, 0, 1⟩), (⟨-1, 0, 0, 0, 1, 0, 0, 0, -1⟩, ⟨-1, 1, 0⟩)]]),
  (.P, 34628190336, [[(⟨-1, 0, 0, 0, -1, 0, 0, 0, 1⟩, ⟨0, 0, 1⟩)],
    [(⟨-1, 0, 0, 0, -1, 0, 0, 0, 1⟩, ⟨-1, 0, 0⟩), (⟨-1, 0, 0, 0, 1, 0, 0, 0, 1⟩, ⟨1, 0, 0⟩)],
    [(⟨-1, 0, 0, 0, 1, 0, 0, 0, 1⟩, ⟨0, 1, 0⟩)],
    [(⟨-1, 0, 0, 0, 1, 0, 0, 0, 1⟩, ⟨0, 0, 1⟩)]]),
  (.P, 42949693440, [[(⟨1, 0, 0, 0, -1, 0, 0, 0, -1⟩, ⟨1, 0, 0⟩)],
    [(⟨1, 0, 0, 0, -1, 0, 0, 0, 1⟩, ⟨1, 0, 0⟩)],
    [(⟨1, 0, 0, 0, -1, 0, 0, 0, -1⟩, ⟨0, -1, 0⟩), (⟨1, 0, 0, 0, -1, 0, 0, 0, 1⟩, ⟨0, 1, 0⟩)],
    [(⟨1, 0, 0, 0, -1, 0, 0, 0, 1⟩, ⟨0, 0, 1⟩)]]),
  (.P, 20640, [[(⟨-1, 0, 0, 0, 1, 0, 0, 0, -1⟩, ⟨0, 1, 0⟩)],
    [(⟨-1, 0, 0, 0, 1, 0, 0, 0, -1⟩, ⟨-1, 0, 0⟩), (⟨-1, 0, 0, 0, 1, 0, 0, 0, 1⟩, ⟨1, 0, 0⟩)],
    [(⟨-1, 0, 0, 0, 1, 0, 0, 0, 1⟩, ⟨0, 1, 0⟩)],
    [(⟨-1, 0, 0, 0, 1, 0, 0, 0, 1⟩, ⟨0, 0, 1⟩)]]),
  (.C, 34628190336, [[(⟨-1, 0, 0, 0, 1, 0, 0, 0, 1⟩, ⟨0, 0, 1⟩)],
    [(⟨-1, 0, 0, 0, -1, 0, 0, 0, 1⟩, ⟨0, 0, 1⟩)]]),
  (.A, 42949693440, [[(⟨1, 0, 0, 0, -1, 0, 0, 0, 1⟩, ⟨1, 0, 0⟩)],
    [(⟨1, 0, 0, 0, -1, 0, 0, 0, -1⟩, ⟨1, 0, 0⟩)]]),
  (.B, 20640, [[(⟨-1, 0, 0, 0, 1, 0, 0, 0, 1⟩, ⟨0, 1, 0⟩)],
    [(⟨-1, 0, 0, 0, 1, 0, 0, 0, -1⟩, ⟨0, 1, 0⟩)]]),
  (.A, 34628190336, [[(⟨-1, 0, 0, 0, -1, 0, 0, 0, 1⟩, ⟨-1, 0, 0⟩), (⟨-1, 0, 0, 0, 1, 0, 0, 0, 1⟩, ⟨1, 0, 0⟩)],
    [(⟨-1, 0, 0, 0, 1, 0, 0, 0, 1⟩, ⟨0, 1, 1⟩)]]),
  (.B, 34628190336, [[(⟨-1, 0, 0, 0, 1, 0, 0, 0, 1⟩, ⟨0, 1, 0⟩)],
    [(⟨-1, 0, 0, 0, -1, 0, 0, 0, 1⟩, ⟨-1, 0, -1⟩), (⟨-1, 0, 0, 0, 1, 0, 0, 0, 1⟩, ⟨1, 0, 1⟩)]]),
  (.B, 42949693440, [[(⟨1, 0, 0, 0, -1, 0, 0, 0, -1⟩, ⟨0, -1, 0⟩), (⟨1, 0, 0, 0, -1, 0, 0, 0, 1⟩, ⟨0, 1, 0⟩)],
    [(⟨1, 0, 0, 0, -1, 0, 0, 0, 1⟩, ⟨1, 0, 1⟩)]]),
  (.C, 42949693440, [[(⟨1, 0, 0, 0, -1, 0, 0, 0, 1⟩, ⟨0, 0, 1⟩)],
    [(⟨1, 0, 0, 0, -1, 0, 0, 0, -1⟩, ⟨-1, -1, 0⟩), (⟨1, 0, 0, 0, -1, 0, 0, 0, 1⟩, ⟨1, 1, 0⟩)]]),
  (.C, 20640, [[(⟨-1, 0, 0, 0, 1, 0, 0, 0, 1⟩, ⟨0, 0, 1⟩)],
    [(⟨-1, 0, 0, 0, 1, 0, 0, 0, -1⟩, ⟨-1, -1, 0⟩), (⟨-1, 0, 0, 0, 1, 0, 0, 0, 1⟩, ⟨1, 1, 0⟩)]]),
  (.A, 20640, [[(⟨-1, 0, 0, 0, 1, 0, 0, 0, -1⟩, ⟨-1, 0, 0⟩), (⟨-1, 0, 0, 0, 1, 0, 0, 0, 1⟩, ⟨1, 0, 0⟩)],
    [(⟨-1, 0, 0, 0, 1, 0, 0, 0, 1⟩, ⟨0, 1, 1⟩)]]),
  (.F, 34628190336, [[(⟨-1, 0, 0, 0, -1, 0, 0, 0, 1⟩, ⟨-2, 0, -2⟩), (⟨-1, 0, 0, 0, 1, 0, 0, 0, 1⟩, ⟨2, 2, 2⟩)]]),
  (.F, 42949693440, [[(⟨1, 0, 0, 0, -1, 0, 0, 0, -1⟩, ⟨-2, -2, 0⟩), (⟨1, 0, 0, 0, -1, 0, 0, 0, 1⟩, ⟨2, 2, 2⟩)]]),
  (.F, 20640, [[(⟨-1, 0, 0, 0, 1, 0, 0, 0, -1⟩, ⟨-2, -2, 0⟩), (⟨-1, 0, 0, 0, 1, 0, 0, 0, 1⟩, ⟨2, 2, 2⟩)]]),
  (.I, 34628190336, [[(⟨-1, 0, 0, 0, -1, 0, 0, 0, 1⟩, ⟨-1, 0, -1⟩), (⟨-1, 0, 0, 0, 1, 0, 0, 0, 1⟩, ⟨1, 0, 1⟩)],
    [(⟨-1, 0, 0, 0, 1, 0, 0, 0, 1⟩, ⟨0, 1, 1⟩)]]),
  (.I, 42949693440, [[(⟨1, 0, 0, 0, -1, 0, 0, 0, 1⟩, ⟨1, 0, 1⟩)],
    [(⟨1, 0, 0, 0, -1, 0, 0, 0, -1⟩, ⟨1, -1, 0⟩), (⟨1, 0, 0, 0, -1, 0, 0, 0, 1⟩, ⟨0, 1, 1⟩)]]),
  (.I, 20640, [[(⟨-1, 0, 0, 0, 1, 0, 0, 0, -1⟩, ⟨-1, 1, 0⟩), (⟨-1, 0, 0, 0, 1, 0, 0, 0, 1⟩, ⟨1, 0, 1⟩)],
    [(⟨-1, 0, 0, 0, 1, 0, 0, 0, 1⟩, ⟨0, 1, 1⟩)]]),
  (.P, 43285237920, [[(⟨-1, 0, 0, 0, -1, 0, 0, 0, -1⟩, ⟨-1, 0, 0⟩), (⟨-1, 0, 0, 0, -1, 0, 0, 0, 1⟩, ⟨1, 0, 0⟩)],
    [(⟨-1, 0, 0, 0, -1, 0, 0, 0, -1⟩, ⟨0, -1, 0⟩), (⟨-1, 0, 0, 0, -1, 0, 0, 0, 1⟩, ⟨0, 1, 0⟩)],
    [(⟨-1, 0, 0, 0, -1, 0, 0, 0, 1⟩, ⟨0, 0, 1⟩)],
    [(⟨-1, 0, 0, 0, -1, 0, 0, 0, -1⟩, ⟨-1, 0, 0⟩), (⟨-1, 0, 0, 0, 1, 0, 0, 0, -1⟩, ⟨1, 0, 0⟩)],
    [(⟨-1, 0, 0, 0, 1, 0, 0, 0, -1⟩, ⟨0, 1, 0⟩)],
    [(⟨-1, 0, 0, 0, -1, 0, 0, 0, -1⟩, ⟨0, 0, -1⟩), (⟨-1, 0, 0, 0, 1, 0, 0, 0, -1⟩, ⟨0, 0, 1⟩)]]),
  (.C, 43285237920, [[(⟨-1, 0, 0, 0, -1, 0, 0, 0, 1⟩, ⟨0, 0, 1⟩)],
    [(⟨-1, 0, 0, 0, -1, 0, 0, 0, -1⟩, ⟨-1, -1, 0⟩), (⟨-1, 0, 0, 0, -1, 0, 0, 0, 1⟩, ⟨1, 1, 0⟩)],
    [(⟨-1, 0, 0, 0, -1, 0, 0, 0, -1⟩, ⟨0, 0, 1⟩), (⟨-1, 0, 0, 0, 1, 0, 0, 0, -1⟩, ⟨0, 0, -1⟩)]]),
  (.A, 43285237920, [[(⟨-1, 0, 0, 0, -1, 0, 0, 0, -1⟩, ⟨-1, 0, 0⟩), (⟨-1, 0, 0, 0, -1, 0, 0, 0, 1⟩, ⟨1, 0, 0⟩)],
    [(⟨-1, 0, 0, 0, -1, 0, 0, 0, -1⟩, ⟨-1, 0, 0⟩), (⟨-1, 0, 0, 0, 1, 0, 0, 0, -1⟩, ⟨1, 0, 0⟩)],
    [(⟨-1, 0, 0, 0, -1, 0, 0, 0, -1⟩, ⟨0, -1, -1⟩), (⟨-1, 0, 0, 0, -1, 0, 0, 0, 1⟩, ⟨0, 1, 1⟩), (⟨-1, 0, 0, 0, 1, 0, 0, 0, -1⟩, ⟨0, 1, 1⟩)]]),
  (.B, 43285237920, [[(⟨-1, 0, 0, 0, -1, 0, 0, 0, -1⟩, ⟨0, -1, 0⟩), (⟨-1, 0, 0, 0, -1, 0, 0, 0, 1⟩, ⟨0, 1, 0⟩)],
    [(⟨-1, 0, 0, 0, 1, 0, 0, 0, -1⟩, ⟨0, 1, 0⟩)],
    [(⟨-1, 0, 0, 0, -1, 0, 0, 0, -1⟩, ⟨-1, 0, -1⟩), (⟨-1, 0, 0, 0, 1, 0, 0, 0, -1⟩, ⟨1, 0, 1⟩)]]),
  (.F, 43285237920, [[(⟨-1, 0, 0, 0, -1, 0, 0, 0, -1⟩, ⟨-2, -2, -2⟩), (⟨-1, 0, 0, 0, -1, 0, 0, 0, 1⟩, ⟨0, 2, 0⟩), (⟨-1, 0, 0, 0, 1, 0, 0, 0, -1⟩, ⟨2, 2, 2⟩)]]),
  (.I, 43285237920, [[(⟨-1, 0, 0, 0, -1, 0, 0, 0, -1⟩, ⟨1, -1, 0⟩), (⟨-1, 0, 0, 0, -1, 0, 0, 0, 1⟩, ⟨-1, 1, 0⟩)],
    [(⟨-1, 0, 0, 0, -1, 0, 0, 0, -1⟩, ⟨-1, 0, -1⟩), (⟨-1, 0, 0, 0, 1, 0, 0, 0, -1⟩, ⟨1, 0, 1⟩)],
    [(⟨-1, 0, 0, 0, -1, 0, 0, 0, -1⟩, ⟨-1, 0, -1⟩), (⟨-1, 0, 0, 0, -1, 0, 0, 0, 1⟩, ⟨1, 0, 1⟩), (⟨-1, 0, 0, 0, 1, 0, 0, 0, -1⟩, ⟨0, 1, 1⟩)]]),
  (.P, 805330944, [[(⟨0, -1, 0, 1, 0, 0, 0, 0, 1⟩, ⟨0, 0, 1⟩)]]),
  (.I, 805330944, [[(⟨0, -1, 0, 1, 0, 0, 0, 0, 1⟩, ⟨0, 0, 2⟩)]]),
  (.P, 1006663680, [[(⟨-1, 0, 0, 0, -1, 0, 0, 0, -1⟩, ⟨0, -1, 0⟩), (⟨0, -1, 0, 1, 0, 0, 0, 0, -1⟩, ⟨1, 1, 0⟩)],
    [(⟨-1, 0, 0, 0, -1, 0, 0, 0, -1⟩, ⟨0, 0, -1⟩), (⟨0, -1, 0, 1, 0, 0, 0, 0, -1⟩, ⟨0, 0, 1⟩)]]),
  (.I, 1006663680, [[(⟨-1, 0, 0, 0, -1, 0, 0, 0, -1⟩, ⟨0, 2, 2⟩), (⟨0, -1, 0, 1, 0, 0, 0, 0, -1⟩, ⟨-2, -2, -2⟩)]]),
  (.P, 9932136992, [[(⟨-1, 0, 0, 0, 1, 0, 0, 0, -1⟩, ⟨0, 1, 0⟩)],
    [(⟨-1, 0, 0, 0, 1, 0, 0, 0, -1⟩, ⟨0, 0, -1⟩), (⟨0, -1, 0, -1, 0, 0, 0, 0, -1⟩, ⟨0, 0, 1⟩)]]),
  (.I, 9932136992, [[(⟨-1, 0, 0, 0, 1, 0, 0, 0, -1⟩, ⟨0, -2, -2⟩), (⟨0, -1, 0, -1, 0, 0, 0, 0, -1⟩, ⟨0, 0, 2⟩)]]),
  (.P, 37312555136, [[(⟨-1, 0, 0, 0, 1, 0, 0, 0, 1⟩, ⟨0, 0, 1⟩)],
    [(⟨-1, 0, 0, 0, 1, 0, 0, 0, 1⟩, ⟨0, 1, 0⟩)],
    [(⟨0, -1, 0, -1, 0, 0, 0, 0, 1⟩, ⟨0, 0, 1⟩)]]),
  (.I, 37312555136, [[(⟨-1, 0, 0, 0, 1, 0, 0, 0, 1⟩, ⟨0, 1, 1⟩)],
    [(⟨0, -1, 0, -1, 0, 0, 0, 0, 1⟩, ⟨-1, 1, 0⟩)]]),
  (.P, 11140091936, [[(⟨-1, 0, 0, 0, 1, 0, 0, 0, -1⟩, ⟨0, 1, 0⟩)],
    [(⟨0, -1, 0, -1, 0, 0, 0, 0, 1⟩, ⟨0, 0, 1⟩)]]),
  (.P, 35299281536, [[(⟨-1, 0, 0, 0, 1, 0, 0, 0, 1⟩, ⟨0, 1, 0⟩)],
    [(⟨-1, 0, 0, 0, 1, 0, 0, 0, 1⟩, ⟨0, 0, 1⟩)]]),
  (.I, 35299281536, [[(⟨-1, 0, 0, 0, 1, 0, 0, 0, 1⟩, ⟨0, 1, 1⟩)]]),
  (.I, 11140091936, [[(⟨0, -1, 0, -1, 0, 0, 0, 0, 1⟩, ⟨-1, 1, 0⟩)]]),
  (.P, 46640693920, [[(⟨-1, 0, 0, 0, -1, 0, 0, 0, -1⟩, ⟨0, 1, 0⟩), (⟨-1, 0, 0, 0, 1, 0, 0, 0, -1⟩, ⟨1, 0, 0⟩), (⟨0, -1, 0, -1, 0, 0, 0, 0, -1⟩, ⟨-2, 0, 0⟩)],
    [(⟨-1, 0, 0, 0, 1, 0, 0, 0, -1⟩, ⟨0, 1, 0⟩)],
    [(⟨-1, 0, 0, 0, -1, 0, 0, 0, -1⟩, ⟨0, 0, -1⟩), (⟨-1, 0, 0, 0, 1, 0, 0, 0, -1⟩, ⟨0, 0, 1⟩)],
    [(⟨-1, 0, 0, 0, -1, 0, 0, 0, -1⟩, ⟨0, 0, -1⟩), (⟨0, -1, 0, -1, 0, 0, 0, 0, -1⟩, ⟨0, 0, 1⟩)]]),
  (.I, 46640693920, [[(⟨-1, 0, 0, 0, -1, 0, 0, 0, -1⟩, ⟨0, 1, 1⟩), (⟨-1, 0, 0, 0, 1, 0, 0, 0, -1⟩, ⟨1, 0, 1⟩), (⟨0, -1, 0, -1, 0, 0, 0, 0, -1⟩, ⟨-2, 0, -2⟩)],
    [(⟨-1, 0, 0, 0, 1, 0, 0, 0, -1⟩, ⟨0, -2, -2⟩), (⟨0, -1, 0, -1, 0, 0, 0, 0, -1⟩, ⟨0, 0, 2⟩)]]),
  (.P, 1099511644672, [[(⟨-1, 1, 0, -1, 0, 0, 0, 0, 1⟩, ⟨0, 0, 1⟩)]]),
  (.P, 144116292419338752, [[(⟨-1, 1, 0, -1, 0, 0, 0, 0, 1⟩, ⟨0, 0, 1⟩)]]),
  (.P, 5497558156352, [[(⟨-1, 1, 0, -1, 0, 0, 0, 0, 1⟩, ⟨0, 0, 1⟩)]]),
  (.P, 576461871142420992, [[(⟨-1, 1, 0, 0, 1, 0, 0, 0, 1⟩, ⟨0, 0, 1⟩)]]),
  (.P, 18691697691392, [[(⟨-1, 0, 0, -1, 1, 0, 0, 0, 1⟩, ⟨0, 0, 1⟩)]]),
  (.R, 576461871142420992, [[(⟨-1, 1, 0, 0, 1, 0, 0, 0, 1⟩, ⟨0, 1, -1⟩)]]),
  (.P, 211106241464320, [[(⟨0, 0, 1, 0, 1, 0, 1, 0, 0⟩, ⟨-1, 0, 0⟩), (⟨0, 0, 1, 1, 0, 0, 0, 1, 0⟩, ⟨1, 0, 0⟩)]]),
  (.P, 144133886819977985, [[(⟨-1, 0, 0, -1, 1, 0, 0, 0, 1⟩, ⟨0, 0, 1⟩)]]),
  (.P, 576466271403525185, [[(⟨-1, 1, 0, 0, 1, 0, 0, 0, 1⟩, ⟨0, 0, 1⟩)]]),
  (.R, 576466271403525185, [[(⟨-1, 1, 0, 0, 1, 0, 0, 0, 1⟩, ⟨0, 1, -1⟩)]]),
  (.P, 54254302376118272, [[(⟨-1, 0, 0, 0, 0, -1, 0, -1, 0⟩, ⟨0, -1, 0⟩), (⟨0, -1, 0, 0, 0, -1, -1, 0, 0⟩, ⟨0, 1, 0⟩)]]),
  (.P, 1108370014724, [[(⟨0, 1, 0, -1, 1, 0, 0, 0, 1⟩, ⟨0, 0, 1⟩)]]),
  (.P, 1385462518405, [[(⟨-1, 0, 0, 0, -1, 0, 0, 0, -1⟩, ⟨0, 0, -1⟩), (⟨-1, 1, 0, -1, 0, 0, 0, 0, -1⟩, ⟨0, 0, 1⟩)]]),
  (.P, 144120699324220484, [[(⟨-1, 0, 0, -1, 1, 0, 0, 0, -1⟩, ⟨0, 0, -1⟩), (⟨-1, 1, 0, 0, 1, 0, 0, 0, -1⟩, ⟨0, 0, 1⟩)]]),
  (.P, 576479472186837764, [[(⟨-1, 0, 0, -1, 1, 0, 0, 0, 1⟩, ⟨0, 0, 1⟩)],
    [(⟨-1, 1, 0, 0, 1, 0, 0, 0, 1⟩, ⟨0, 0, 1⟩)]]),
  (.P, 720577338928026240, [[(⟨-1, 1, 0, -1, 0, 0, 0, 0, -1⟩, ⟨0, 0, -1⟩), (⟨-1, 1, 0, 0, 1, 0, 0, 0, -1⟩, ⟨0, 0, 1⟩)]]),
  (.P, 23364622114240, [[(⟨-1, 0, 0, -1, 1, 0, 0, 0, -1⟩, ⟨0, 0, -1⟩), (⟨-1, 1, 0, -1, 0, 0, 0, 0, -1⟩, ⟨0, 0, 1⟩)]]),
  (.P, 720599340233547205, [[(⟨-1, 0, 0, -1, 1, 0, 0, 0, 1⟩, ⟨0, 0, 1⟩)],
    [(⟨-1, 0, 0, -1, 1, 0, 0, 0, -1⟩, ⟨0, 0, -1⟩), (⟨-1, 1, 0, 0, 1, 0, 0, 0, -1⟩, ⟨0, 0, 1⟩)]]),
  (.P, 281552689874976, [[(⟨-1, 0, 0, 0, -1, 0, 0, 0, 1⟩, ⟨0, 0, 1⟩)]]),
  (.I, 281552689874976, [[(⟨-1, 0, 0, 0, -1, 0, 0, 0, 1⟩, ⟨1, 1, 2⟩), (⟨0, -1, 0, 0, 0, -1, 1, 0, 0⟩, ⟨-4, 2, -2⟩)]]),
  (.P, 36310384710318256, [[(⟨-1, 0, 0, 0, -1, 0, 0, 0, 1⟩, ⟨0, 0, 1⟩)],
    [(⟨-1, 0, 0, 0, -1, 0, 0, 0, 1⟩, ⟨-1, 0, 0⟩), (⟨0, -1, 0, 0, 0, -1, -1, 0, 0⟩, ⟨1, -1, 1⟩)]]),
  (.F, 36310384710318256, [[(⟨-1, 0, 0, 0, -1, 0, 0, 0, 1⟩, ⟨-2, 0, -2⟩), (⟨0, -1, 0, 0, 0, -1, -1, 0, 0⟩, ⟨2, -2, 2⟩)]]),
  (.I, 36310384710318256, [[(⟨-1, 0, 0, 0, -1, 0, 0, 0, 1⟩, ⟨3, 1, 4⟩), (⟨0, -1, 0, 0, 0, -1, -1, 0, 0⟩, ⟨-4, 2, -2⟩)]]),
  (.P, 40813951752464992, [[(⟨-1, 0, 0, 0, 0, -1, 0, -1, 0⟩, ⟨0, -1, 0⟩), (⟨0, -1, 0, 0, 0, -1, 1, 0, 0⟩, ⟨0, 1, 0⟩)]]),
  (.F, 40813951752464992, [[(⟨-1, 0, 0, 0, 0, -1, 0, -1, 0⟩, ⟨0, -2, 0⟩), (⟨0, -1, 0, 0, 0, -1, 1, 0, 0⟩, ⟨1, 1, 1⟩)]]),
  (.I, 40813951752464992, [[(⟨-1, 0, 0, 0, 0, -1, 0, -1, 0⟩, ⟨0, 1, 1⟩), (⟨0, -1, 0, 0, 0, -1, 1, 0, 0⟩, ⟨-2, 0, -2⟩)]]),
  (.P, 914890882608160, [[(⟨-1, 0, 0, 0, 0, -1, 0, 1, 0⟩, ⟨1, 1, -1⟩), (⟨0, -1, 0, -1, 0, 0, 0, 0, 1⟩, ⟨-2, 0, 0⟩)]]),
  (.F, 914890882608160, [[(⟨-1, 0, 0, 0, 0, -1, 0, 1, 0⟩, ⟨-1, -1, 1⟩), (⟨0, -1, 0, -1, 0, 0, 0, 0, 1⟩, ⟨0, 2, 0⟩)]]),
  (.I, 914890882608160, [[(⟨-1, 0, 0, 0, 0, -1, 0, 1, 0⟩, ⟨-2, -2, 2⟩), (⟨0, -1, 0, -1, 0, 0, 0, 0, 1⟩, ⟨4, 0, 4⟩)]]),
  (.P, 77476121965641456, [[(⟨-1, 0, 0, 0, 0, -1, 0, -1, 0⟩, ⟨1, 1, 0⟩), (⟨0, -1, 0, 0, 0, 1, 1, 0, 0⟩, ⟨-2, 1, 0⟩)],
    [(⟨-1, 0, 0, 0, 0, -1, 0, -1, 0⟩, ⟨0, -1, 0⟩), (⟨0, -1, 0, 0, 0, 1, 1, 0, 0⟩, ⟨1, 0, 1⟩)]]),
  (.F, 77476121965641456, [[(⟨-1, 0, 0, 0, 0, -1, 0, -1, 0⟩, ⟨0, 2, 0⟩), (⟨0, -1, 0, 0, 0, 1, 1, 0, 0⟩, ⟨-2, 0, -2⟩)],
    [(⟨-1, 0, 0, 0, 0, -1, 0, -1, 0⟩, ⟨1, -3, 1⟩), (⟨0, -1, 0, 0, 0, 1, 1, 0, 0⟩, ⟨1, 1, 3⟩)]]),
  (.I, 77476121965641456, [[(⟨-1, 0, 0, 0, 0, -1, 0, -1, 0⟩, ⟨0, 1, 1⟩), (⟨0, -1, 0, 0, 0, 1, 1, 0, 0⟩, ⟨-2, 0, -2⟩)]])]

theorem functionals_good : functionals.Good = true := by decide +kernel

end Verif
