import Verif.Proofs.SettingCheck

/-! Generated by tools/gen_settings.py; checked by the kernel. -/

namespace Verif

/-- Rows of the full table in a derived setting. -/
def settingRows3 : List SettingRow := [
  ⟨236, 232, 6, "P 2 2 -1ac", "P 2 2 -1ab"⟩,
  ⟨237, 233, 11, "-P 2a 2c", "-P 2ab 2b"⟩,
  ⟨239, 238, 2, "-P 2b 2", "-P 2a 2a"⟩,
  ⟨240, 238, 0, "-P 2 2b", "-P 2a 2a"⟩,
  ⟨241, 238, 3, "-P 2c 2c", "-P 2a 2a"⟩,
  ⟨242, 238, 1, "-P 2c 2", "-P 2a 2a"⟩,
  ⟨243, 238, 4, "-P 2 2a", "-P 2a 2a"⟩,
  ⟨245, 244, 2, "-P 2b 2n", "-P 2a 2bc"⟩,
  ⟨246, 244, 0, "-P 2n 2b", "-P 2a 2bc"⟩,
  ⟨247, 244, 3, "-P 2ab 2c", "-P 2a 2bc"⟩,
  ⟨248, 244, 1, "-P 2ab 2n", "-P 2a 2bc"⟩,
  ⟨249, 244, 4, "-P 2n 2bc", "-P 2a 2bc"⟩,
  ⟨251, 250, 2, "-P 2bc 2bc", "-P 2ac 2"⟩,
  ⟨252, 250, 0, "-P 2ab 2ab", "-P 2ac 2"⟩,
  ⟨253, 250, 3, "-P 2 2ac", "-P 2ac 2"⟩,
  ⟨254, 250, 1, "-P 2 2bc", "-P 2ac 2"⟩,
  ⟨255, 250, 4, "-P 2ab 2", "-P 2ac 2"⟩,
  ⟨257, 256, 2, "-P 2b 2c", "-P 2a 2ac"⟩,
  ⟨258, 256, 0, "-P 2a 2b", "-P 2a 2ac"⟩,
  ⟨259, 256, 3, "-P 2ac 2c", "-P 2a 2ac"⟩,
  ⟨260, 256, 1, "-P 2bc 2b", "-P 2a 2ac"⟩,
  ⟨261, 256, 4, "-P 2b 2ab", "-P 2a 2ac"⟩,
  ⟨263, 262, 0, "-P 2bc 2", "-P 2 2ab"⟩,
  ⟨264, 262, 1, "-P 2ac 2ac", "-P 2 2ab"⟩,
  ⟨266, 265, 0, "-P 2ac 2bc", "-P 2ab 2ac"⟩,
  ⟨267, 265, 1, "-P 2bc 2ab", "-P 2ab 2ac"⟩,
  ⟨269, 268, 2, "-P 2c 2ac", "-P 2c 2b"⟩,
  ⟨270, 268, 0, "-P 2ac 2a", "-P 2c 2b"⟩,
  ⟨271, 268, 3, "-P 2b 2a", "-P 2c 2b"⟩,
  ⟨272, 268, 1, "-P 2a 2ab", "-P 2c 2b"⟩,
  ⟨273, 268, 4, "-P 2bc 2c", "-P 2c 2b"⟩,
  ⟨275, 274, 0, "-P 2n 2", "-P 2 2n"⟩,
  ⟨276, 274, 1, "-P 2n 2n", "-P 2 2n"⟩,
  ⟨279, 277, 5, "P 2bc 2 -1bc", "P 2 2ab -1ab"⟩,
  ⟨280, 278, 10, "-P 2c 2bc", "-P 2ab 2a"⟩,
  ⟨281, 277, 6, "P 2ac 2ac -1ac", "P 2 2ab -1ab"⟩,
  ⟨282, 278, 11, "-P 2c 2a", "-P 2ab 2a"⟩,
  ⟨284, 283, 2, "-P 2n 2c", "-P 2n 2ab"⟩,
  ⟨285, 283, 0, "-P 2a 2n", "-P 2n 2ab"⟩,
  ⟨286, 283, 3, "-P 2bc 2n", "-P 2n 2ab"⟩,
  ⟨287, 283, 1, "-P 2ac 2b", "-P 2n 2ab"⟩,
  ⟨288, 283, 4, "-P 2b 2ac", "-P 2n 2ab"⟩,
  ⟨290, 289, 2, "-P 2bc 2ac", "-P 2ac 2ab"⟩,
  ⟨292, 291, 2, "-P 2bc 2a", "-P 2ac 2n"⟩,
  ⟨293, 291, 0, "-P 2c 2ab", "-P 2ac 2n"⟩,
  ⟨294, 291, 3, "-P 2n 2ac", "-P 2ac 2n"⟩,
  ⟨295, 291, 1, "-P 2n 2a", "-P 2ac 2n"⟩,
  ⟨296, 291, 4, "-P 2c 2n", "-P 2ac 2n"⟩,
  ⟨298, 297, 2, "-C 2c 2c", "-C 2c 2"⟩,
  ⟨299, 297, 0, "-A 2a 2a", "-C 2c 2"⟩,
  ⟨300, 297, 3, "-A 2 2a", "-C 2c 2"⟩,
  ⟨301, 297, 1, "-B 2 2b", "-C 2c 2"⟩,
  ⟨302, 297, 4, "-B 2b 2", "-C 2c 2"⟩,
  ⟨304, 303, 2, "-C 2bc 2bc", "-C 2bc 2"⟩,
  ⟨305, 303, 0, "-A 2ac 2ac", "-C 2bc 2"⟩,
  ⟨306, 303, 3, "-A 2 2ac", "-C 2bc 2"⟩,
  ⟨307, 303, 1, "-B 2 2bc", "-C 2bc 2"⟩,
  ⟨308, 303, 4, "-B 2bc 2", "-C 2bc 2"⟩,
  ⟨310, 309, 0, "-A 2 2", "-C 2 2"⟩,
  ⟨311, 309, 1, "-B 2 2", "-C 2 2"⟩,
  ⟨313, 312, 0, "-A 2a 2", "-C 2 2c"⟩,
  ⟨314, 312, 1, "-B 2b 2b", "-C 2 2c"⟩,
  ⟨316, 315, 2, "-C 2b 2b", "-C 2b 2"⟩,
  ⟨317, 315, 0, "-A 2c 2c", "-C 2b 2"⟩,
  ⟨318, 315, 3, "-A 2 2c", "-C 2b 2"⟩,
  ⟨319, 315, 1, "-B 2 2c", "-C 2b 2"⟩,
  ⟨320, 315, 4, "-B 2c 2", "-C 2b 2"⟩,
  ⟨323, 321, 7, "C 2 2 -1bc", "C 2 2 -1bc"⟩,
  ⟨324, 322, 12, "-C 2b 2c", "-C 2b 2bc"⟩,
  ⟨325, 321, 5, "A 2 2 -1ac", "C 2 2 -1bc"⟩,
  ⟨326, 322, 10, "-A 2a 2c", "-C 2b 2bc"⟩,
  ⟨327, 321, 8, "A 2 2 -1ac", "C 2 2 -1bc"⟩,
  ⟨328, 322, 13, "-A 2ac 2c", "-C 2b 2bc"⟩,
  ⟨329, 321, 6, "B 2 2 -1bc", "C 2 2 -1bc"⟩,
  ⟨330, 322, 11, "-B 2bc 2b", "-C 2b 2bc"⟩,
  ⟨331, 321, 9, "B 2 2 -1bc", "C 2 2 -1bc"⟩,
  ⟨332, 322, 14, "-B 2b 2bc", "-C 2b 2bc"⟩,
  ⟨338, 337, 0, "-I 2a 2", "-I 2 2c"⟩,
  ⟨339, 337, 1, "-I 2b 2b", "-I 2 2c"⟩,
  ⟨341, 340, 2, "-I 2a 2b", "-I 2b 2c"⟩,
  ⟨343, 342, 2, "-I 2a 2a", "-I 2b 2"⟩,
  ⟨344, 342, 0, "-I 2c 2c", "-I 2b 2"⟩,
  ⟨345, 342, 3, "-I 2 2b", "-I 2b 2"⟩,
  ⟨346, 342, 1, "-I 2 2a", "-I 2b 2"⟩,
  ⟨347, 342, 4, "-I 2c 2", "-I 2b 2"⟩,
  ⟨433, 432, 34, "P 3*", "R 3"⟩,
  ⟨436, 435, 34, "-P 3*", "-R 3"⟩,
  ⟨444, 443, 34, "P 3* 2", "R 3 2\""⟩,
  ⟨450, 449, 34, "P 3* -2", "R 3 -2\""⟩,
  ⟨452, 451, 34, "P 3* -2n", "R 3 -2\"c"⟩,
  ⟨458, 457, 34, "-P 3* 2", "-R 3 2\""⟩,
  ⟨460, 459, 34, "-P 3* 2n", "-R 3 2\"c"⟩]

theorem settingRows3_ok : settingRows3.all SettingRow.check = true := by decide +kernel

end Verif
