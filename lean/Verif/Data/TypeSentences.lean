import Verif.Proofs.TypeInvariant

/-! Generated by tools/gen_types.py; checked by the kernel. -/

namespace Verif

/-- A crystal class: statements, and the space-group types with their truth values. -/
structure ClassData where
  sentences : List Sentence
  members : List (Nat × String × List Bool)

/-- The truth values are right. -/
def ClassData.check (c : ClassData) : Bool :=
  c.sentences.all Sentence.modsB && c.members.all fun m => memberCheck c.sentences m.2.1 m.2.2

theorem and_ok {a b : Bool} (ha : a = true) (hb : b = true) : (a && b) = true := by rw [ha, hb]; rfl

theorem all_ok {α : Type} {p : α → Bool} {a : α} {l : List α} (ha : p a = true) (hl : l.all p = true) : (a :: l).all p = true := by
  rw [List.all_cons, ha, hl]; rfl

/-- Statements that separate the types of the class of number 1. -/
def sents1 : List Sentence := [
  ]

/-- The class of number 1. -/
def class1 : ClassData := ⟨sents1, [
  (1, "P 1", [])]⟩

/-- Statements that separate the types of the class of number 2. -/
def sents2 : List Sentence := [
  ]

/-- The class of number 2. -/
def class2 : ClassData := ⟨sents2, [
  (2, "-P 1", [])]⟩

/-- Statements that separate the types of the class of number 3. -/
def sents3 : List Sentence := [
  ⟨.N2, .E, .N2, [(true, .trans 2 [(false, [(1, [false]), (-1, [])])])]⟩,
  ⟨.N2, .E, .N2, [(true, .lift 2 [(true, [false, false], [])])]⟩]

/-- The class of number 3. -/
def class3 : ClassData := ⟨sents3, [
  (3, "P 2y", [false, true]),
  (4, "P 2yb", [false, false]),
  (5, "C 2y", [true, true])]⟩

/-- Statements that separate the types of the class of number 6. -/
def sents6 : List Sentence := [
  ⟨.M, .E, .M, [(true, .trans 2 [(false, [(1, [false]), (-1, [])])])]⟩,
  ⟨.M, .E, .M, [(true, .lift 2 [(true, [false, false], [])])]⟩]

/-- The class of number 6. -/
def class6 : ClassData := ⟨sents6, [
  (6, "P -2y", [false, true]),
  (7, "P -2yc", [false, false]),
  (8, "C -2y", [true, true]),
  (9, "C -2yc", [true, false])]⟩

/-- Statements that separate the types of the class of number 10. -/
def sents10 : List Sentence := [
  ⟨.M, .E, .M, [(true, .lift 2 [(true, [false, false], [])])]⟩,
  ⟨.N2, .E, .N2, [(true, .trans 2 [(false, [(1, [false]), (-1, [])])])]⟩,
  ⟨.N2, .E, .N2, [(true, .lift 2 [(true, [false, false], [])])]⟩]

/-- The class of number 10. -/
def class10 : ClassData := ⟨sents10, [
  (10, "-P 2y", [true, false, true]),
  (11, "-P 2yb", [true, false, false]),
  (12, "-C 2y", [true, true, true]),
  (13, "-P 2yc", [false, false, true]),
  (14, "-P 2ybc", [false, false, false]),
  (15, "-C 2yc", [false, true, true])]⟩

/-- Statements that separate the types of the class of number 16. -/
def sents16 : List Sentence := [
  ⟨.N2, .E, .N2, [(true, .trans 2 [(false, [(1, [false]), (-1, [])])])]⟩,
  ⟨.N2, .N2, .N2, [(false, .trans 2 [(false, [(1, [false]), (-1, [true])])]), (true, .lift 2 [(true, [false, false], [true, true])])]⟩,
  ⟨.N2, .N2, .N2, [(true, .lift 2 [(true, [false, true, false, true], [])]), (false, .lift 2 [(true, [false, false], [true, true]), (true, [false, true, false, true], [])])]⟩,
  ⟨.N2, .N2, .N2, [(true, .trans 2 [(false, [(1, [false]), (-1, [])]), (true, [(1, [true]), (-1, [])])])]⟩]

/-- The class of number 16. -/
def class16 : ClassData := ⟨sents16, [
  (16, "P 2 2", [false, true, false, false]),
  (17, "P 2c 2", [false, true, true, false]),
  (18, "P 2 2ab", [false, false, true, false]),
  (19, "P 2ac 2ab", [false, false, false, false]),
  (20, "C 2c 2", [true, true, true, true]),
  (21, "C 2 2", [true, true, false, true]),
  (22, "F 2 2", [true, false, false, true]),
  (23, "I 2 2", [true, false, false, false]),
  (24, "I 2ac 2ab", [true, false, true, false])]⟩

/-- Statements that separate the types of the class of number 25. -/
def sents25 : List Sentence := [
  ⟨.M, .E, .M, [(false, .lift 2 [(true, [false, false], [])]), (false, .trans 2 [(false, [(1, [false]), (-1, [])])])]⟩,
  ⟨.N2, .M, .M, [(false, .trans 2 [(true, [(1, [false]), (-1, [])]), (false, [(1, [true]), (-1, [])])]), (true, .lift 2 [(true, [false, false], [false, true, false, true])])]⟩,
  ⟨.N2, .M, .M, [(false, .lift 2 [(true, [false, true, false, true], [])]), (true, .lift 2 [(true, [false, false], [false, true, false, true, false, true, false, true])])]⟩,
  ⟨.M, .M, .N2, [(false, .trans 2 [(false, [(1, [false]), (-1, [true])])]), (true, .lift 4 [(true, [false, true, true], [true, true, false])])]⟩,
  ⟨.N2, .M, .M, [(false, .lift 2 [(true, [false, true, false, true], [])]), (true, .lift 2 [(true, [false, true], [true, false])])]⟩,
  ⟨.N2, .M, .M, [(false, .trans 2 [(false, [(1, [false]), (-1, [true])])]), (true, .lift 4 [(true, [true, true, false, true, true], [false])])]⟩,
  ⟨.M, .E, .M, [(true, .lift 2 [(true, [false, false], [])])]⟩]

/-- The class of number 25. -/
def class25 : ClassData := ⟨sents25, [
  (25, "P 2 -2", [false, true, false, true, false, true, true]),
  (26, "P 2c -2", [true, true, false, true, true, true, true]),
  (27, "P 2 -2c", [true, false, true, true, true, false, false]),
  (28, "P 2 -2a", [true, true, true, true, false, true, true]),
  (29, "P 2c -2ac", [true, true, false, true, false, true, false]),
  (30, "P 2 -2bc", [true, false, true, true, false, false, false]),
  (31, "P 2ac -2", [true, false, false, true, false, true, true]),
  (32, "P 2 -2ab", [true, false, true, false, false, true, false]),
  (33, "P 2c -2n", [true, false, false, false, false, true, false]),
  (34, "P 2 -2n", [true, false, true, false, false, false, false]),
  (35, "C 2 -2", [false, false, false, true, false, false, true]),
  (36, "C 2c -2", [false, false, false, true, true, false, true]),
  (37, "C 2 -2c", [false, false, true, true, true, false, false]),
  (38, "A 2 -2", [false, true, false, false, false, true, true]),
  (39, "A 2 -2b", [true, true, true, false, true, true, true]),
  (40, "A 2 -2a", [false, true, true, false, false, true, true]),
  (41, "A 2 -2ab", [true, true, true, false, false, true, false]),
  (42, "F 2 -2", [false, false, false, false, false, false, true]),
  (43, "F 2 -2yd", [false, false, true, false, false, false, false]),
  (44, "I 2 -2", [false, true, false, false, false, false, true]),
  (45, "I 2 -2c", [false, true, true, false, true, false, false]),
  (46, "I 2 -2a", [false, true, true, false, true, false, true])]⟩

/-- Statements that separate the types of the class of number 47. -/
def sents47 : List Sentence := [
  ⟨.N2, .E, .N2, [(false, .lift 2 [(true, [false, false], [])])]⟩,
  ⟨.N2, .M, .M, [(true, .lift 2 [(true, [false, false], [true, true]), (true, [false, true, false, true], [])])]⟩,
  ⟨.N2, .M, .M, [(false, .lift 2 [(true, [false, true, false, true], [])]), (true, .lift 2 [(true, [false, false], [true, true])])]⟩,
  ⟨.N2, .E, .N2, [(true, .lift 2 [(true, [false, false], [])]), (false, .trans 2 [(false, [(1, [false]), (-1, [])])])]⟩,
  ⟨.N2, .M, .M, [(false, .trans 2 [(true, [(1, [false]), (-1, [])]), (false, [(1, [true]), (-1, [])])]), (true, .lift 2 [(true, [true, true], [false, true, false, true])])]⟩,
  ⟨.M, .E, .M, [(true, .lift 2 [(true, [false, false], [])]), (false, .trans 2 [(false, [(1, [false]), (-1, [])])])]⟩,
  ⟨.N2, .N2, .N2, [(true, .trans 2 [(false, [(1, [false]), (-1, [true])])]), (true, .lift 2 [(true, [false, false], [true, true]), (true, [false, true, false, true], [])])]⟩,
  ⟨.N2, .M, .M, [(true, .lift 4 [(true, [false, true, true], [true, true, false])])]⟩]

/-- The class of number 47. -/
def class47 : ClassData := ⟨sents47, [
  (47, "-P 2 2", [false, true, false, true, true, true, false, true]),
  (48, "P 2 2 -1n", [false, false, false, true, false, false, false, false]),
  (49, "-P 2 2c", [false, false, true, true, true, true, false, true]),
  (50, "P 2 2 -1ab", [false, false, false, true, false, false, false, true]),
  (51, "-P 2a 2a", [true, true, true, true, true, true, false, true]),
  (52, "-P 2a 2bc", [true, false, false, true, false, false, false, true]),
  (53, "-P 2ac 2", [true, false, true, true, false, true, false, true]),
  (54, "-P 2a 2ac", [true, false, true, true, true, false, false, true]),
  (55, "-P 2 2ab", [true, true, false, true, false, true, false, true]),
  (56, "-P 2ab 2ac", [true, false, false, true, true, false, false, true]),
  (57, "-P 2c 2b", [true, true, true, true, false, true, false, true]),
  (58, "-P 2 2n", [true, false, false, true, false, true, false, true]),
  (59, "P 2 2ab -1ab", [true, true, false, true, true, true, false, true]),
  (60, "-P 2n 2ab", [true, false, true, true, false, false, false, true]),
  (61, "-P 2ac 2ab", [true, false, true, false, false, false, false, true]),
  (62, "-P 2ac 2n", [true, true, false, false, false, true, false, true]),
  (63, "-C 2c 2", [true, true, true, false, true, true, false, true]),
  (64, "-C 2bc 2", [true, true, true, false, true, false, false, true]),
  (65, "-C 2 2", [false, true, false, true, true, true, true, true]),
  (66, "-C 2 2c", [false, false, true, true, false, true, true, true]),
  (67, "-C 2b 2", [false, true, true, true, true, false, true, true]),
  (68, "C 2 2 -1bc", [false, false, true, true, false, false, true, true]),
  (69, "-F 2 2", [false, true, false, false, false, false, true, true]),
  (70, "F 2 2 -1d", [false, false, false, false, false, false, true, false]),
  (71, "-I 2 2", [false, true, false, false, true, false, true, true]),
  (72, "-I 2 2c", [false, true, true, false, true, false, true, true]),
  (73, "-I 2b 2c", [false, false, true, false, true, false, false, true]),
  (74, "-I 2b 2", [false, true, true, false, true, false, false, true])]⟩

/-- Statements that separate the types of the class of number 75. -/
def sents75 : List Sentence := [
  ⟨.N4, .E, .N4, [(true, .lift 2 [(true, [false, false, false, false], [])])]⟩,
  ⟨.N2, .E, .N2, [(true, .trans 2 [(false, [(1, [false]), (-1, [])])])]⟩,
  ⟨.N4, .E, .N4, [(true, .lift 4 [(true, [false, false, false, false], [])])]⟩]

/-- The class of number 75. -/
def class75 : ClassData := ⟨sents75, [
  (75, "P 4", [true, false, true]),
  (76, "P 4w", [false, false, false]),
  (77, "P 4c", [true, false, false]),
  (78, "P 4cw", [false, false, false]),
  (79, "I 4", [true, true, true]),
  (80, "I 4bw", [false, true, false])]⟩

/-- Statements that separate the types of the class of number 81. -/
def sents81 : List Sentence := [
  ⟨.N2, .E, .N2, [(true, .trans 2 [(false, [(1, [false]), (-1, [])])])]⟩]

/-- The class of number 81. -/
def class81 : ClassData := ⟨sents81, [
  (81, "P -4", [false]),
  (82, "I -4", [true])]⟩

/-- Statements that separate the types of the class of number 83. -/
def sents83 : List Sentence := [
  ⟨.M, .E, .M, [(true, .lift 2 [(true, [false, false], [])])]⟩,
  ⟨.N2, .E, .N2, [(true, .trans 2 [(false, [(1, [false]), (-1, [])])])]⟩,
  ⟨.N4, .E, .N4, [(true, .lift 4 [(true, [false, false, false, false], [])])]⟩]

/-- The class of number 83. -/
def class83 : ClassData := ⟨sents83, [
  (83, "-P 4", [true, false, true]),
  (84, "-P 4c", [true, false, false]),
  (85, "P 4ab -1ab", [false, false, true]),
  (86, "P 4n -1n", [false, false, false]),
  (87, "-I 4", [true, true, true]),
  (88, "I 4bw -1bw", [false, true, false])]⟩

/-- Statements that separate the types of the class of number 89. -/
def sents89 : List Sentence := [
  ⟨.N4, .E, .N4, [(true, .lift 2 [(true, [false, false, false, false], [])])]⟩,
  ⟨.N2, .N2, .N4, [(true, .lift 2 [(true, [false, false], [true, true])])]⟩,
  ⟨.N4, .N2, .N2, [(false, .trans 2 [(false, [(1, [false]), (-1, [true])])]), (false, .lift 4 [(true, [false, true, true], [true, true, false]), (true, [false, false, false, false], [])])]⟩,
  ⟨.N2, .E, .N2, [(false, .trans 2 [(false, [(1, [false]), (-1, [])])])]⟩]

/-- The class of number 89. -/
def class89 : ClassData := ⟨sents89, [
  (89, "P 4 2", [true, true, false, true]),
  (90, "P 4ab 2ab", [true, false, false, true]),
  (91, "P 4w 2c", [false, true, true, true]),
  (92, "P 4abw 2nw", [false, false, true, true]),
  (93, "P 4c 2", [true, true, true, true]),
  (94, "P 4n 2n", [true, false, true, true]),
  (95, "P 4cw 2c", [false, true, true, true]),
  (96, "P 4nw 2abw", [false, false, true, true]),
  (97, "I 4 2", [true, true, false, false]),
  (98, "I 4bw 2bw", [false, true, false, false])]⟩

/-- Statements that separate the types of the class of number 99. -/
def sents99 : List Sentence := [
  ⟨.N4, .E, .N4, [(true, .lift 4 [(true, [false, false, false, false], [])])]⟩,
  ⟨.M, .E, .M, [(false, .lift 2 [(true, [false, false], [])]), (false, .trans 2 [(false, [(1, [false]), (-1, [])])])]⟩,
  ⟨.N2, .M, .M, [(false, .trans 2 [(false, [(1, [false]), (-1, [true])])]), (true, .lift 2 [(true, [true, true], [false, true, false, true])])]⟩,
  ⟨.N2, .M, .M, [(false, .trans 2 [(false, [(1, [false]), (-1, [])]), (true, [(1, [true]), (-1, [])])]), (true, .lift 2 [(true, [false, true, false, true], [])])]⟩]

/-- The class of number 99. -/
def class99 : ClassData := ⟨sents99, [
  (99, "P 4 -2", [true, false, true, true]),
  (100, "P 4 -2ab", [true, true, false, true]),
  (101, "P 4c -2c", [false, true, true, true]),
  (102, "P 4n -2n", [false, true, false, true]),
  (103, "P 4 -2c", [true, true, true, false]),
  (104, "P 4 -2n", [true, true, false, false]),
  (105, "P 4c -2", [false, false, true, true]),
  (106, "P 4c -2ab", [false, true, false, false]),
  (107, "I 4 -2", [true, false, false, true]),
  (108, "I 4 -2c", [true, false, false, false]),
  (109, "I 4bw -2", [false, false, false, true]),
  (110, "I 4bw -2c", [false, false, false, false])]⟩

/-- Statements that separate the types of the class of number 111. -/
def sents111 : List Sentence := [
  ⟨.N2, .N2, .N2, [(true, .trans 2 [(false, [(1, [false]), (-1, [])]), (true, [(1, [true]), (-1, [])])])]⟩,
  ⟨.N2, .M, .M, [(true, .lift 2 [(true, [false, false], [false, true, false, true])])]⟩,
  ⟨.M, .M, .N2, [(false, .trans 2 [(false, [(1, [false]), (-1, [true])])]), (true, .lift 2 [(true, [false, false], [true, true])])]⟩,
  ⟨.N2, .E, .N2, [(false, .lift 2 [(true, [false, false], [])])]⟩,
  ⟨.N2, .M, .M, [(false, .lift 2 [(true, [false, true, false, true], [])]), (true, .lift 4 [(true, [true, true, false, true, true], [false])])]⟩]

/-- The class of number 111. -/
def class111 : ClassData := ⟨sents111, [
  (111, "P -4 2", [false, true, true, false, false]),
  (112, "P -4 2c", [false, false, true, false, false]),
  (113, "P -4 2ab", [false, true, true, true, false]),
  (114, "P -4 2n", [false, false, true, true, false]),
  (115, "P -4 -2", [true, true, true, false, false]),
  (116, "P -4 -2c", [true, false, true, false, false]),
  (117, "P -4 -2ab", [true, false, false, false, true]),
  (118, "P -4 -2n", [true, false, false, false, false]),
  (119, "I -4 -2", [true, true, false, false, false]),
  (120, "I -4 -2c", [true, true, false, false, true]),
  (121, "I -4 2", [false, true, false, false, false]),
  (122, "I -4 2bw", [false, false, false, false, false])]⟩

/-- Statements that separate the types of the class of number 123. -/
def sents123 : List Sentence := [
  ⟨.N4, .E, .N4, [(true, .lift 4 [(true, [false, false, false, false], [])])]⟩,
  ⟨.M, .E, .M, [(true, .lift 2 [(true, [false, false], [])]), (false, .trans 2 [(false, [(1, [false]), (-1, [])])])]⟩,
  ⟨.M, .E, .M, [(true, .lift 2 [(true, [false, false], [])]), (true, .trans 2 [(false, [(1, [false]), (-1, [])])])]⟩,
  ⟨.M4, .M, .N2, [(false, .trans 2 [(false, [(1, [false]), (-1, [true])])]), (true, .lift 2 [(true, [false, true, false, true], [])])]⟩,
  ⟨.N4, .M, .M, [(false, .lift 2 [(true, [false, true, false, true], [])]), (true, .lift 2 [(true, [false, false, false, false], [true, true])])]⟩]

/-- The class of number 123. -/
def class123 : ClassData := ⟨sents123, [
  (123, "-P 4 2", [true, true, true, true, false]),
  (124, "-P 4 2c", [true, true, false, true, false]),
  (125, "P 4 2 -1ab", [true, false, true, true, true]),
  (126, "P 4 2 -1n", [true, false, false, true, false]),
  (127, "-P 4 2ab", [true, true, true, false, true]),
  (128, "-P 4 2n", [true, true, false, false, false]),
  (129, "P 4ab 2ab -1ab", [true, true, true, false, false]),
  (130, "P 4ab 2n -1ab", [true, false, false, false, false]),
  (131, "-P 4c 2", [false, true, false, true, true]),
  (132, "-P 4c 2c", [false, true, true, true, true]),
  (133, "P 4n 2c -1n", [false, false, false, true, false]),
  (134, "P 4n 2 -1n", [false, false, true, true, true]),
  (135, "-P 4c 2ab", [false, true, false, false, false]),
  (136, "-P 4n 2n", [false, true, true, false, true]),
  (137, "P 4n 2n -1n", [false, true, false, false, true]),
  (138, "P 4n 2ab -1n", [false, false, true, false, true]),
  (139, "-I 4 2", [true, false, true, false, false]),
  (140, "-I 4 2c", [true, false, true, false, true]),
  (141, "I 4bw 2bw -1bw", [false, false, true, false, false]),
  (142, "I 4bw 2aw -1bw", [false, false, false, false, true])]⟩

/-- Statements that separate the types of the class of number 143. -/
def sents143 : List Sentence := [
  ⟨.N3, .E, .N3, [(true, .lift 3 [(true, [false, false, false], [])])]⟩,
  ⟨.N3, .E, .N3, [(true, .trans 3 [(false, [(1, [false, false]), (1, [false]), (1, [])])])]⟩]

/-- The class of number 143. -/
def class143 : ClassData := ⟨sents143, [
  (143, "P 3", [true, false]),
  (144, "P 31", [false, false]),
  (145, "P 32", [false, false]),
  (146, "R 3", [true, true])]⟩

/-- Statements that separate the types of the class of number 147. -/
def sents147 : List Sentence := [
  ⟨.N3, .E, .N3, [(true, .trans 3 [(false, [(1, [false, false]), (1, [false]), (1, [])])])]⟩]

/-- The class of number 147. -/
def class147 : ClassData := ⟨sents147, [
  (147, "-P 3", [false]),
  (148, "-R 3", [true])]⟩

/-- Statements that separate the types of the class of number 149. -/
def sents149 : List Sentence := [
  ⟨.N3, .E, .N3, [(true, .lift 3 [(true, [false, false, false], [])])]⟩,
  ⟨.N2, .N2, .N3, [(true, .trans 3 [(false, [(1, [false]), (-1, [])]), (true, [(1, [true]), (-1, [])])])]⟩,
  ⟨.N3, .E, .N3, [(true, .trans 3 [(false, [(1, [false, false]), (1, [false]), (1, [])])])]⟩]

/-- The class of number 149. -/
def class149 : ClassData := ⟨sents149, [
  (149, "P 3 2", [true, false, false]),
  (150, "P 3 2\"", [true, true, false]),
  (151, "P 31 2c (0 0 1)", [false, false, false]),
  (152, "P 31 2\"", [false, true, false]),
  (153, "P 32 2c (0 0 -1)", [false, false, false]),
  (154, "P 32 2\"", [false, true, false]),
  (155, "R 3 2\"", [true, true, true])]⟩

/-- Statements that separate the types of the class of number 156. -/
def sents156 : List Sentence := [
  ⟨.M, .E, .M, [(true, .lift 2 [(true, [false, false], [])])]⟩,
  ⟨.N3, .M, .M, [(true, .trans 3 [(false, [(1, [false]), (-1, [])]), (true, [(1, [true]), (-1, [])])])]⟩,
  ⟨.N3, .M, .M, [(true, .trans 3 [(true, [(1, [false]), (-1, [])]), (false, [(1, [true]), (-1, [])])])]⟩]

/-- The class of number 156. -/
def class156 : ClassData := ⟨sents156, [
  (156, "P 3 -2\"", [true, false, false]),
  (157, "P 3 -2", [true, true, true]),
  (158, "P 3 -2\"c", [false, false, false]),
  (159, "P 3 -2c", [false, true, true]),
  (160, "R 3 -2\"", [true, true, false]),
  (161, "R 3 -2\"c", [false, true, false])]⟩

/-- Statements that separate the types of the class of number 162. -/
def sents162 : List Sentence := [
  ⟨.M, .E, .M, [(true, .lift 2 [(true, [false, false], [])])]⟩,
  ⟨.N2, .N2, .N3, [(true, .trans 3 [(false, [(1, [false]), (-1, [])]), (true, [(1, [true]), (-1, [])])])]⟩,
  ⟨.N3, .M, .M, [(true, .trans 3 [(false, [(1, [false]), (-1, [])]), (true, [(1, [true]), (-1, [])])])]⟩]

/-- The class of number 162. -/
def class162 : ClassData := ⟨sents162, [
  (162, "-P 3 2", [true, false, true]),
  (163, "-P 3 2c", [false, false, true]),
  (164, "-P 3 2\"", [true, true, false]),
  (165, "-P 3 2\"c", [false, true, false]),
  (166, "-R 3 2\"", [true, true, true]),
  (167, "-R 3 2\"c", [false, true, true])]⟩

/-- Statements that separate the types of the class of number 168. -/
def sents168 : List Sentence := [
  ⟨.N2, .E, .N2, [(true, .lift 2 [(true, [false, false], [])])]⟩,
  ⟨.N3, .E, .N3, [(true, .lift 3 [(true, [false, false, false], [])])]⟩]

/-- The class of number 168. -/
def class168 : ClassData := ⟨sents168, [
  (168, "P 6", [true, true]),
  (169, "P 61", [false, false]),
  (170, "P 65", [false, false]),
  (171, "P 62", [true, false]),
  (172, "P 64", [true, false]),
  (173, "P 6c", [false, true])]⟩

/-- Statements that separate the types of the class of number 174. -/
def sents174 : List Sentence := [
  ]

/-- The class of number 174. -/
def class174 : ClassData := ⟨sents174, [
  (174, "P -6", [])]⟩

/-- Statements that separate the types of the class of number 175. -/
def sents175 : List Sentence := [
  ⟨.N2, .E, .N2, [(true, .lift 2 [(true, [false, false], [])])]⟩]

/-- The class of number 175. -/
def class175 : ClassData := ⟨sents175, [
  (175, "-P 6", [true]),
  (176, "-P 6c", [false])]⟩

/-- Statements that separate the types of the class of number 177. -/
def sents177 : List Sentence := [
  ⟨.N2, .E, .N2, [(false, .lift 2 [(true, [false, false], [])])]⟩,
  ⟨.N3, .E, .N3, [(true, .lift 3 [(true, [false, false, false], [])])]⟩]

/-- The class of number 177. -/
def class177 : ClassData := ⟨sents177, [
  (177, "P 6 2", [false, true]),
  (178, "P 61 2 (0 0 -1)", [true, false]),
  (179, "P 65 2 (0 0 1)", [true, false]),
  (180, "P 62 2c (0 0 1)", [false, false]),
  (181, "P 64 2c (0 0 -1)", [false, false]),
  (182, "P 6c 2c", [true, true])]⟩

/-- Statements that separate the types of the class of number 183. -/
def sents183 : List Sentence := [
  ⟨.N2, .E, .N2, [(true, .lift 2 [(true, [false, false], [])])]⟩,
  ⟨.N3, .M, .M, [(true, .trans 3 [(false, [(1, [false]), (-1, [])]), (true, [(1, [true]), (-1, [])])]), (true, .lift 2 [(true, [false, true, false, true], [])])]⟩]

/-- The class of number 183. -/
def class183 : ClassData := ⟨sents183, [
  (183, "P 6 -2", [true, true]),
  (184, "P 6 -2c", [true, false]),
  (185, "P 6c -2", [false, true]),
  (186, "P 6c -2c", [false, false])]⟩

/-- Statements that separate the types of the class of number 187. -/
def sents187 : List Sentence := [
  ⟨.M, .E, .M, [(false, .lift 2 [(true, [false, false], [])])]⟩,
  ⟨.M6, .N2, .M, [(true, .trans 3 [(false, [(1, [false]), (-1, [])]), (true, [(1, [true]), (-1, [])])])]⟩]

/-- The class of number 187. -/
def class187 : ClassData := ⟨sents187, [
  (187, "P -6 2", [false, false]),
  (188, "P -6c 2", [true, false]),
  (189, "P -6 -2", [false, true]),
  (190, "P -6c -2c", [true, true])]⟩

/-- Statements that separate the types of the class of number 191. -/
def sents191 : List Sentence := [
  ⟨.N2, .E, .N2, [(false, .lift 2 [(true, [false, false], [])])]⟩,
  ⟨.M6, .N2, .M, [(true, .trans 3 [(false, [(1, [false]), (-1, [])]), (true, [(1, [true]), (-1, [])])]), (true, .lift 2 [(true, [false, true, false, true], [])])]⟩]

/-- The class of number 191. -/
def class191 : ClassData := ⟨sents191, [
  (191, "-P 6 2", [false, true]),
  (192, "-P 6 2c", [false, false]),
  (193, "-P 6c 2", [true, true]),
  (194, "-P 6c 2c", [true, false])]⟩

/-- Statements that separate the types of the class of number 195. -/
def sents195 : List Sentence := [
  ⟨.N2, .E, .N2, [(true, .trans 2 [(false, [(1, [false]), (-1, [])])])]⟩,
  ⟨.N2, .N2, .N2, [(true, .lift 2 [(true, [false, false], [true, true]), (true, [false, true, false, true], [])])]⟩,
  ⟨.N2, .N2, .N2, [(true, .trans 2 [(false, [(1, [false]), (-1, [])]), (true, [(1, [true]), (-1, [])])])]⟩]

/-- The class of number 195. -/
def class195 : ClassData := ⟨sents195, [
  (195, "P 2 2 3", [false, true, false]),
  (196, "F 2 2 3", [true, true, true]),
  (197, "I 2 2 3", [true, true, false]),
  (198, "P 2ac 2ab 3", [false, false, false]),
  (199, "I 2b 2c 3", [true, false, false])]⟩

/-- Statements that separate the types of the class of number 200. -/
def sents200 : List Sentence := [
  ⟨.N2, .E, .N2, [(true, .trans 2 [(false, [(1, [false]), (-1, [])])])]⟩,
  ⟨.M, .E, .M, [(true, .lift 2 [(true, [false, false], [])])]⟩,
  ⟨.M3, .M3, .N2, [(false, .trans 2 [(false, [(1, [false]), (-1, [])]), (true, [(1, [true]), (-1, [])])]), (true, .lift 2 [(true, [false, true, false, true], [])])]⟩]

/-- The class of number 200. -/
def class200 : ClassData := ⟨sents200, [
  (200, "-P 2 2 3", [false, true, true]),
  (201, "P 2 2 3 -1n", [false, false, true]),
  (202, "-F 2 2 3", [true, true, true]),
  (203, "F 2 2 3 -1d", [true, false, true]),
  (204, "-I 2 2 3", [true, true, false]),
  (205, "-P 2ac 2ab 3", [false, false, false]),
  (206, "-I 2b 2c 3", [true, false, false])]⟩

/-- Statements that separate the types of the class of number 207. -/
def sents207 : List Sentence := [
  ⟨.N2, .E, .N2, [(false, .trans 2 [(false, [(1, [false]), (-1, [])])])]⟩,
  ⟨.N4, .E, .N4, [(true, .lift 2 [(true, [false, false, false, false], [])])]⟩,
  ⟨.N2, .N3, .N3, [(true, .trans 2 [(false, [(1, [false]), (-1, [])]), (true, [(1, [true]), (-1, [])])])]⟩,
  ⟨.N4, .E, .N4, [(true, .lift 4 [(true, [false, false, false, false], [])])]⟩]

/-- The class of number 207. -/
def class207 : ClassData := ⟨sents207, [
  (207, "P 4 2 3", [true, true, false, true]),
  (208, "P 4n 2 3", [true, true, false, false]),
  (209, "F 4 2 3", [false, true, false, true]),
  (210, "F 4d 2 3", [false, false, false, false]),
  (211, "I 4 2 3", [false, true, true, true]),
  (212, "P 4acd 2ab 3", [true, false, false, false]),
  (213, "P 4bd 2ab 3", [true, false, false, false]),
  (214, "I 4bd 2c 3", [false, false, true, false])]⟩

/-- Statements that separate the types of the class of number 215. -/
def sents215 : List Sentence := [
  ⟨.M, .E, .M, [(true, .lift 2 [(true, [false, false], [])])]⟩,
  ⟨.N2, .E, .N2, [(true, .trans 2 [(false, [(1, [false]), (-1, [])])])]⟩,
  ⟨.M4, .M4, .N3, [(true, .trans 2 [(false, [(1, [false]), (-1, [])]), (true, [(1, [true]), (-1, [])])])]⟩]

/-- The class of number 215. -/
def class215 : ClassData := ⟨sents215, [
  (215, "P -4 2 3", [true, false, true]),
  (216, "F -4 2 3", [true, true, false]),
  (217, "I -4 2 3", [true, true, true]),
  (218, "P -4n 2 3", [false, false, true]),
  (219, "F -4c 2 3", [false, true, false]),
  (220, "I -4bd 2c 3", [false, true, true])]⟩

/-- Statements that separate the types of the class of number 221. -/
def sents221 : List Sentence := [
  ⟨.N4, .E, .N4, [(true, .lift 4 [(true, [false, false, false, false], [])])]⟩,
  ⟨.N2, .E, .N2, [(false, .trans 2 [(false, [(1, [false]), (-1, [])])])]⟩,
  ⟨.M3, .N2, .M, [(true, .lift 2 [(true, [false, true, false, true], [])])]⟩,
  ⟨.M3, .M3, .N2, [(true, .trans 2 [(false, [(1, [false]), (-1, [])]), (true, [(1, [true]), (-1, [])])])]⟩]

/-- The class of number 221. -/
def class221 : ClassData := ⟨sents221, [
  (221, "-P 4 2 3", [true, true, true, false]),
  (222, "P 4 2 3 -1n", [true, true, false, false]),
  (223, "-P 4n 2 3", [false, true, false, false]),
  (224, "P 4n 2 3 -1n", [false, true, true, false]),
  (225, "-F 4 2 3", [true, false, true, false]),
  (226, "-F 4c 2 3", [true, false, false, false]),
  (227, "F 4d 2 3 -1d", [false, false, true, false]),
  (228, "F 4d 2 3 -1cd", [false, false, false, false]),
  (229, "-I 4 2 3", [true, false, true, true]),
  (230, "-I 4bd 2c 3", [false, false, false, true])]⟩

/-- All crystal classes. -/
def classData : List ClassData := [
  class1, class2, class3, class6, class10, class16, class25, class47, class75, class81, class83, class89, class99, class111, class123, class143, class147, class149, class156, class162, class168, class174, class175, class177, class183, class187, class191, class195, class200, class207, class215, class221]

end Verif
