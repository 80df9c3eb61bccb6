import Verif.Proofs.SettingCheck

/-! Generated by tools/gen_settings.py; checked by the kernel. -/

namespace Verif

/-- Rows of the full table in a derived setting. -/
def settingRows2 : List SettingRow := [
  ⟨109, 108, 0, "P 2a 2a", "P 2c 2"⟩,
  ⟨110, 108, 1, "P 2 2b", "P 2c 2"⟩,
  ⟨112, 111, 0, "P 2bc 2", "P 2 2ab"⟩,
  ⟨113, 111, 1, "P 2ac 2ac", "P 2 2ab"⟩,
  ⟨116, 115, 0, "A 2a 2a", "C 2c 2"⟩,
  ⟨117, 115, 1, "B 2 2b", "C 2c 2"⟩,
  ⟨119, 118, 0, "A 2 2", "C 2 2"⟩,
  ⟨120, 118, 1, "B 2 2", "C 2 2"⟩,
  ⟨125, 124, 0, "P -2 2", "P 2 -2"⟩,
  ⟨126, 124, 1, "P -2 -2", "P 2 -2"⟩,
  ⟨128, 127, 2, "P 2c -2c", "P 2c -2"⟩,
  ⟨129, 127, 0, "P -2a 2a", "P 2c -2"⟩,
  ⟨130, 127, 3, "P -2 2a", "P 2c -2"⟩,
  ⟨131, 127, 1, "P -2 -2b", "P 2c -2"⟩,
  ⟨132, 127, 4, "P -2b -2", "P 2c -2"⟩,
  ⟨134, 133, 0, "P -2a 2", "P 2 -2c"⟩,
  ⟨135, 133, 1, "P -2b -2b", "P 2 -2c"⟩,
  ⟨137, 136, 2, "P 2 -2b", "P 2 -2a"⟩,
  ⟨138, 136, 0, "P -2b 2", "P 2 -2a"⟩,
  ⟨139, 136, 3, "P -2c 2", "P 2 -2a"⟩,
  ⟨140, 136, 1, "P -2c -2c", "P 2 -2a"⟩,
  ⟨141, 136, 4, "P -2a -2a", "P 2 -2a"⟩,
  ⟨143, 142, 2, "P 2c -2b", "P 2c -2ac"⟩,
  ⟨144, 142, 0, "P -2b 2a", "P 2c -2ac"⟩,
  ⟨145, 142, 3, "P -2ac 2a", "P 2c -2ac"⟩,
  ⟨146, 142, 1, "P -2bc -2c", "P 2c -2ac"⟩,
  ⟨147, 142, 4, "P -2a -2ab", "P 2c -2ac"⟩,
  ⟨149, 148, 2, "P 2 -2ac", "P 2 -2bc"⟩,
  ⟨150, 148, 0, "P -2ac 2", "P 2 -2bc"⟩,
  ⟨151, 148, 3, "P -2ab 2", "P 2 -2bc"⟩,
  ⟨152, 148, 1, "P -2ab -2ab", "P 2 -2bc"⟩,
  ⟨153, 148, 4, "P -2bc -2bc", "P 2 -2bc"⟩,
  ⟨155, 154, 2, "P 2bc -2bc", "P 2ac -2"⟩,
  ⟨156, 154, 0, "P -2ab 2ab", "P 2ac -2"⟩,
  ⟨157, 154, 3, "P -2 2ac", "P 2ac -2"⟩,
  ⟨158, 154, 1, "P -2 -2bc", "P 2ac -2"⟩,
  ⟨159, 154, 4, "P -2ab -2", "P 2ac -2"⟩,
  ⟨161, 160, 0, "P -2bc 2", "P 2 -2ab"⟩,
  ⟨162, 160, 1, "P -2ac -2ac", "P 2 -2ab"⟩,
  ⟨164, 163, 2, "P 2c -2ab", "P 2c -2n"⟩,
  ⟨165, 163, 0, "P -2bc 2a", "P 2c -2n"⟩,
  ⟨166, 163, 3, "P -2n 2a", "P 2c -2n"⟩,
  ⟨167, 163, 1, "P -2n -2ac", "P 2c -2n"⟩,
  ⟨168, 163, 4, "P -2ac -2n", "P 2c -2n"⟩,
  ⟨170, 169, 0, "P -2n 2", "P 2 -2n"⟩,
  ⟨171, 169, 1, "P -2n -2n", "P 2 -2n"⟩,
  ⟨173, 172, 0, "A -2 2", "C 2 -2"⟩,
  ⟨174, 172, 1, "B -2 -2", "C 2 -2"⟩,
  ⟨176, 175, 2, "C 2c -2c", "C 2c -2"⟩,
  ⟨177, 175, 0, "A -2a 2a", "C 2c -2"⟩,
  ⟨178, 175, 3, "A -2 2a", "C 2c -2"⟩,
  ⟨179, 175, 1, "B -2 -2b", "C 2c -2"⟩,
  ⟨180, 175, 4, "B -2b -2", "C 2c -2"⟩,
  ⟨182, 181, 0, "A -2a 2", "C 2 -2c"⟩,
  ⟨183, 181, 1, "B -2b -2b", "C 2 -2c"⟩,
  ⟨185, 184, 2, "B 2 -2", "A 2 -2"⟩,
  ⟨186, 184, 0, "B -2 2", "A 2 -2"⟩,
  ⟨187, 184, 3, "C -2 2", "A 2 -2"⟩,
  ⟨188, 184, 1, "C -2 -2", "A 2 -2"⟩,
  ⟨189, 184, 4, "A -2 -2", "A 2 -2"⟩,
  ⟨191, 190, 2, "B 2 -2c", "A 2 -2b"⟩,
  ⟨192, 190, 0, "B -2c 2", "A 2 -2b"⟩,
  ⟨193, 190, 3, "C -2b 2", "A 2 -2b"⟩,
  ⟨194, 190, 1, "C -2b -2b", "A 2 -2b"⟩,
  ⟨195, 190, 4, "A -2c -2c", "A 2 -2b"⟩,
  ⟨197, 196, 2, "B 2 -2b", "A 2 -2a"⟩,
  ⟨198, 196, 0, "B -2b 2", "A 2 -2a"⟩,
  ⟨199, 196, 3, "C -2c 2", "A 2 -2a"⟩,
  ⟨200, 196, 1, "C -2c -2c", "A 2 -2a"⟩,
  ⟨201, 196, 4, "A -2a -2a", "A 2 -2a"⟩,
  ⟨203, 202, 2, "B 2 -2bc", "A 2 -2ab"⟩,
  ⟨204, 202, 0, "B -2bc 2", "A 2 -2ab"⟩,
  ⟨205, 202, 3, "C -2bc 2", "A 2 -2ab"⟩,
  ⟨206, 202, 1, "C -2bc -2bc", "A 2 -2ab"⟩,
  ⟨207, 202, 4, "A -2ac -2ac", "A 2 -2ab"⟩,
  ⟨209, 208, 0, "F -2 2", "F 2 -2"⟩,
  ⟨210, 208, 1, "F -2 -2", "F 2 -2"⟩,
  ⟨212, 211, 0, "F -2d 2", "F 2 -2yd"⟩,
  ⟨213, 211, 1, "F -2d -2d", "F 2 -2yd"⟩,
  ⟨215, 214, 0, "I -2 2", "I 2 -2"⟩,
  ⟨216, 214, 1, "I -2 -2", "I 2 -2"⟩,
  ⟨218, 217, 0, "I -2a 2", "I 2 -2c"⟩,
  ⟨219, 217, 1, "I -2b -2b", "I 2 -2c"⟩,
  ⟨221, 220, 2, "I 2 -2b", "I 2 -2a"⟩,
  ⟨222, 220, 0, "I -2b 2", "I 2 -2a"⟩,
  ⟨223, 220, 3, "I -2c 2", "I 2 -2a"⟩,
  ⟨224, 220, 1, "I -2c -2c", "I 2 -2a"⟩,
  ⟨225, 220, 4, "I -2a -2a", "I 2 -2a"⟩,
  ⟨230, 229, 0, "-P 2a 2", "-P 2 2c"⟩,
  ⟨231, 229, 1, "-P 2b 2b", "-P 2 2c"⟩,
  ⟨234, 232, 5, "P 2 2 -1bc", "P 2 2 -1ab"⟩,
  ⟨235, 233, 10, "-P 2b 2bc", "-P 2ab 2b"⟩]

theorem settingRows2_ok : settingRows2.all SettingRow.check = true := by decide +kernel

end Verif
