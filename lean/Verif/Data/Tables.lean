/-!
# Space-group tables

Transcribed mechanically from src/database/space_group_table.rs and src/database/mod.rs.
-/

namespace Verif.Data

/-- `NUMBER_AND_CHOICE`, src/database/space_group_table.rs:65-116. -/
def numberAndChoice : List String := [
  "1", "2", "3:b", "3:c", "3:a", "4:b", "4:c", "4:a", "5:b1", "5:b2",
  "5:b3", "5:c1", "5:c2", "5:c3", "5:a1", "5:a2", "5:a3", "6:b", "6:c", "6:a",
  "7:b1", "7:b2", "7:b3", "7:c1", "7:c2", "7:c3", "7:a1", "7:a2", "7:a3", "8:b1",
  "8:b2", "8:b3", "8:c1", "8:c2", "8:c3", "8:a1", "8:a2", "8:a3", "9:b1", "9:b2",
  "9:b3", "9:-b1", "9:-b2", "9:-b3", "9:c1", "9:c2", "9:c3", "9:-c1", "9:-c2", "9:-c3",
  "9:a1", "9:a2", "9:a3", "9:-a1", "9:-a2", "9:-a3", "10:b", "10:c", "10:a", "11:b",
  "11:c", "11:a", "12:b1", "12:b2", "12:b3", "12:c1", "12:c2", "12:c3", "12:a1", "12:a2",
  "12:a3", "13:b1", "13:b2", "13:b3", "13:c1", "13:c2", "13:c3", "13:a1", "13:a2", "13:a3",
  "14:b1", "14:b2", "14:b3", "14:c1", "14:c2", "14:c3", "14:a1", "14:a2", "14:a3", "15:b1",
  "15:b2", "15:b3", "15:-b1", "15:-b2", "15:-b3", "15:c1", "15:c2", "15:c3", "15:-c1", "15:-c2",
  "15:-c3", "15:a1", "15:a2", "15:a3", "15:-a1", "15:-a2", "15:-a3", "16", "17", "17:cab",
  "17:bca", "18", "18:cab", "18:bca", "19", "20", "20:cab", "20:bca", "21", "21:cab",
  "21:bca", "22", "23", "24", "25", "25:cab", "25:bca", "26", "26:ba-c", "26:cab",
  "26:-cba", "26:bca", "26:a-cb", "27", "27:cab", "27:bca", "28", "28:ba-c", "28:cab", "28:-cba",
  "28:bca", "28:a-cb", "29", "29:ba-c", "29:cab", "29:-cba", "29:bca", "29:a-cb", "30", "30:ba-c",
  "30:cab", "30:-cba", "30:bca", "30:a-cb", "31", "31:ba-c", "31:cab", "31:-cba", "31:bca", "31:a-cb",
  "32", "32:cab", "32:bca", "33", "33:ba-c", "33:cab", "33:-cba", "33:bca", "33:a-cb", "34",
  "34:cab", "34:bca", "35", "35:cab", "35:bca", "36", "36:ba-c", "36:cab", "36:-cba", "36:bca",
  "36:a-cb", "37", "37:cab", "37:bca", "38", "38:ba-c", "38:cab", "38:-cba", "38:bca", "38:a-cb",
  "39", "39:ba-c", "39:cab", "39:-cba", "39:bca", "39:a-cb", "40", "40:ba-c", "40:cab", "40:-cba",
  "40:bca", "40:a-cb", "41", "41:ba-c", "41:cab", "41:-cba", "41:bca", "41:a-cb", "42", "42:cab",
  "42:bca", "43", "43:cab", "43:bca", "44", "44:cab", "44:bca", "45", "45:cab", "45:bca",
  "46", "46:ba-c", "46:cab", "46:-cba", "46:bca", "46:a-cb", "47", "48:1", "48:2", "49",
  "49:cab", "49:bca", "50:1", "50:2", "50:1cab", "50:2cab", "50:1bca", "50:2bca", "51", "51:ba-c",
  "51:cab", "51:-cba", "51:bca", "51:a-cb", "52", "52:ba-c", "52:cab", "52:-cba", "52:bca", "52:a-cb",
  "53", "53:ba-c", "53:cab", "53:-cba", "53:bca", "53:a-cb", "54", "54:ba-c", "54:cab", "54:-cba",
  "54:bca", "54:a-cb", "55", "55:cab", "55:bca", "56", "56:cab", "56:bca", "57", "57:ba-c",
  "57:cab", "57:-cba", "57:bca", "57:a-cb", "58", "58:cab", "58:bca", "59:1", "59:2", "59:1cab",
  "59:2cab", "59:1bca", "59:2bca", "60", "60:ba-c", "60:cab", "60:-cba", "60:bca", "60:a-cb", "61",
  "61:ba-c", "62", "62:ba-c", "62:cab", "62:-cba", "62:bca", "62:a-cb", "63", "63:ba-c", "63:cab",
  "63:-cba", "63:bca", "63:a-cb", "64", "64:ba-c", "64:cab", "64:-cba", "64:bca", "64:a-cb", "65",
  "65:cab", "65:bca", "66", "66:cab", "66:bca", "67", "67:ba-c", "67:cab", "67:-cba", "67:bca",
  "67:a-cb", "68:1", "68:2", "68:1ba-c", "68:2ba-c", "68:1cab", "68:2cab", "68:1-cba", "68:2-cba", "68:1bca",
  "68:2bca", "68:1a-cb", "68:2a-cb", "69", "70:1", "70:2", "71", "72", "72:cab", "72:bca",
  "73", "73:ba-c", "74", "74:ba-c", "74:cab", "74:-cba", "74:bca", "74:a-cb", "75", "76",
  "77", "78", "79", "80", "81", "82", "83", "84", "85:1", "85:2",
  "86:1", "86:2", "87", "88:1", "88:2", "89", "90", "91", "92", "93",
  "94", "95", "96", "97", "98", "99", "100", "101", "102", "103",
  "104", "105", "106", "107", "108", "109", "110", "111", "112", "113",
  "114", "115", "116", "117", "118", "119", "120", "121", "122", "123",
  "124", "125:1", "125:2", "126:1", "126:2", "127", "128", "129:1", "129:2", "130:1",
  "130:2", "131", "132", "133:1", "133:2", "134:1", "134:2", "135", "136", "137:1",
  "137:2", "138:1", "138:2", "139", "140", "141:1", "141:2", "142:1", "142:2", "143",
  "144", "145", "146:H", "146:R", "147", "148:H", "148:R", "149", "150", "151",
  "152", "153", "154", "155:H", "155:R", "156", "157", "158", "159", "160:H",
  "160:R", "161:H", "161:R", "162", "163", "164", "165", "166:H", "166:R", "167:H",
  "167:R", "168", "169", "170", "171", "172", "173", "174", "175", "176",
  "177", "178", "179", "180", "181", "182", "183", "184", "185", "186",
  "187", "188", "189", "190", "191", "192", "193", "194", "195", "196",
  "197", "198", "199", "200", "201:1", "201:2", "202", "203:1", "203:2", "204",
  "205", "206", "207", "208", "209", "210", "211", "212", "213", "214",
  "215", "216", "217", "218", "219", "220", "221", "222:1", "222:2", "223",
  "224:1", "224:2", "225", "226", "227:1", "227:2", "228:1", "228:2", "229", "230"
]

/-- `HM_FULL`, src/database/space_group_table.rs:118-649. -/
def hmFull : List String := [
  "P 1", "P -1", "P 1 2 1", "P 1 1 2", "P 2 1 1", "P 1 21 1",
  "P 1 1 21", "P 21 1 1", "C 1 2 1", "A 1 2 1", "I 1 2 1", "A 1 1 2",
  "B 1 1 2", "I 1 1 2", "B 2 1 1", "C 2 1 1", "I 2 1 1", "P 1 m 1",
  "P 1 1 m", "P m 1 1", "P 1 c 1", "P 1 n 1", "P 1 a 1", "P 1 1 a",
  "P 1 1 n", "P 1 1 b", "P b 1 1", "P n 1 1", "P c 1 1", "C 1 m 1",
  "A 1 m 1", "I 1 m 1", "A 1 1 m", "B 1 1 m", "I 1 1 m", "B m 1 1",
  "C m 1 1", "I m 1 1", "C 1 c 1", "A 1 n 1", "I 1 a 1", "A 1 a 1",
  "C 1 n 1", "I 1 c 1", "A 1 1 a", "B 1 1 n", "I 1 1 b", "B 1 1 b",
  "A 1 1 n", "I 1 1 a", "B b 1 1", "C n 1 1", "I c 1 1", "C c 1 1",
  "B n 1 1", "I b 1 1", "P 1 2/m 1", "P 1 1 2/m", "P 2/m 1 1", "P 1 21/m 1",
  "P 1 1 21/m", "P 21/m 1 1", "C 1 2/m 1", "A 1 2/m 1", "I 1 2/m 1", "A 1 1 2/m",
  "B 1 1 2/m", "I 1 1 2/m", "B 2/m 1 1", "C 2/m 1 1", "I 2/m 1 1", "P 1 2/c 1",
  "P 1 2/n 1", "P 1 2/a 1", "P 1 1 2/a", "P 1 1 2/n", "P 1 1 2/b", "P 2/b 1 1",
  "P 2/n 1 1", "P 2/c 1 1", "P 1 21/c 1", "P 1 21/n 1", "P 1 21/a 1", "P 1 1 21/a",
  "P 1 1 21/n", "P 1 1 21/b", "P 21/b 1 1", "P 21/n 1 1", "P 21/c 1 1", "C 1 2/c 1",
  "A 1 2/n 1", "I 1 2/a 1", "A 1 2/a 1", "C 1 2/n 1", "I 1 2/c 1", "A 1 1 2/a",
  "B 1 1 2/n", "I 1 1 2/b", "B 1 1 2/b", "A 1 1 2/n", "I 1 1 2/a", "B 2/b 1 1",
  "C 2/n 1 1", "I 2/c 1 1", "C 2/c 1 1", "B 2/n 1 1", "I 2/b 1 1", "P 2 2 2",
  "P 2 2 21", "P 21 2 2", "P 2 21 2", "P 21 21 2", "P 2 21 21", "P 21 2 21",
  "P 21 21 21", "C 2 2 21", "A 21 2 2", "B 2 21 2", "C 2 2 2", "A 2 2 2",
  "B 2 2 2", "F 2 2 2", "I 2 2 2", "I 21 21 21", "P m m 2", "P 2 m m",
  "P m 2 m", "P m c 21", "P c m 21", "P 21 m a", "P 21 a m", "P b 21 m",
  "P m 21 b", "P c c 2", "P 2 a a", "P b 2 b", "P m a 2", "P b m 2",
  "P 2 m b", "P 2 c m", "P c 2 m", "P m 2 a", "P c a 21", "P b c 21",
  "P 21 a b", "P 21 c a", "P c 21 b", "P b 21 a", "P n c 2", "P c n 2",
  "P 2 n a", "P 2 a n", "P b 2 n", "P n 2 b", "P m n 21", "P n m 21",
  "P 21 m n", "P 21 n m", "P n 21 m", "P m 21 n", "P b a 2", "P 2 c b",
  "P c 2 a", "P n a 21", "P b n 21", "P 21 n b", "P 21 c n", "P c 21 n",
  "P n 21 a", "P n n 2", "P 2 n n", "P n 2 n", "C m m 2", "A 2 m m",
  "B m 2 m", "C m c 21", "C c m 21", "A 21 m a", "A 21 a m", "B b 21 m",
  "B m 21 b", "C c c 2", "A 2 a a", "B b 2 b", "A m m 2", "B m m 2",
  "B 2 m m", "C 2 m m", "C m 2 m", "A m 2 m", "A b m 2", "B m a 2",
  "B 2 c m", "C 2 m b", "C m 2 a", "A c 2 m", "A m a 2", "B b m 2",
  "B 2 m b", "C 2 c m", "C c 2 m", "A m 2 a", "A b a 2", "B b a 2",
  "B 2 c b", "C 2 c b", "C c 2 a", "A c 2 a", "F m m 2", "F 2 m m",
  "F m 2 m", "F d d 2", "F 2 d d", "F d 2 d", "I m m 2", "I 2 m m",
  "I m 2 m", "I b a 2", "I 2 c b", "I c 2 a", "I m a 2", "I b m 2",
  "I 2 m b", "I 2 c m", "I c 2 m", "I m 2 a", "P m m m", "P n n n:1",
  "P n n n:2", "P c c m", "P m a a", "P b m b", "P b a n:1", "P b a n:2",
  "P n c b:1", "P n c b:2", "P c n a:1", "P c n a:2", "P m m a", "P m m b",
  "P b m m", "P c m m", "P m c m", "P m a m", "P n n a", "P n n b",
  "P b n n", "P c n n", "P n c n", "P n a n", "P m n a", "P n m b",
  "P b m n", "P c n m", "P n c m", "P m a n", "P c c a", "P c c b",
  "P b a a", "P c a a", "P b c b", "P b a b", "P b a m", "P m c b",
  "P c m a", "P c c n", "P n a a", "P b n b", "P b c m", "P c a m",
  "P m c a", "P m a b", "P b m a", "P c m b", "P n n m", "P m n n",
  "P n m n", "P m m n:1", "P m m n:2", "P n m m:1", "P n m m:2", "P m n m:1",
  "P m n m:2", "P b c n", "P c a n", "P n c a", "P n a b", "P b n a",
  "P c n b", "P b c a", "P c a b", "P n m a", "P m n b", "P b n m",
  "P c m n", "P m c n", "P n a m", "C m c m", "C c m m", "A m m a",
  "A m a m", "B b m m", "B m m b", "C m c a", "C c m b", "A b m a",
  "A c a m", "B b c m", "B m a b", "C m m m", "A m m m", "B m m m",
  "C c c m", "A m a a", "B b m b", "C m m a", "C m m b", "A b m m",
  "A c m m", "B m c m", "B m a m", "C c c a:1", "C c c a:2", "C c c b:1",
  "C c c b:2", "A b a a:1", "A b a a:2", "A c a a:1", "A c a a:2", "B b c b:1",
  "B b c b:2", "B b a b:1", "B b a b:2", "F m m m", "F d d d:1", "F d d d:2",
  "I m m m", "I b a m", "I m c b", "I c m a", "I b c a", "I c a b",
  "I m m a", "I m m b", "I b m m", "I c m m", "I m c m", "I m a m",
  "P 4", "P 41", "P 42", "P 43", "I 4", "I 41",
  "P -4", "I -4", "P 4/m", "P 42/m", "P 4/n:1", "P 4/n:2",
  "P 42/n:1", "P 42/n:2", "I 4/m", "I 41/a:1", "I 41/a:2", "P 4 2 2",
  "P 42 1 2", "P 41 2 2", "P 41 21 2", "P 42 2 2", "P 42 21 2", "P 43 2 2",
  "P 43 21 2", "I 4 2 2", "I 41 2 2", "P 4 m m", "P 4 b m", "P 42 c m",
  "P 42 n m", "P 4 c c", "P 4 n c", "P 42 m c", "P 42 b c", "I 4 m m",
  "I 4 c m", "I 41 m d", "I 41 c d", "P -4 2 m", "P -4 2 c", "P -4 21 m",
  "P -4 21 c", "P -4 m 2", "P -4 c 2", "P -4 b 2", "P -4 n 2", "I -4 m 2",
  "I -4 c 2", "I -4 2 m", "I -4 2 d", "P 4/m m m", "P 4/m c c", "P 4/n b m:1",
  "P 4/n b m:2", "P 4/n n c:1", "P 4/n n c:2", "P 4/m b m", "P 4/m n c", "P 4/n m m:1",
  "P 4/n m m:2", "P 4/n c c:1", "P 4/n c c:2", "P 42/m m c", "P 42/m c m", "P 42/n b c:1",
  "P 42/n b c:2", "P 42/n n m:1", "P 42/n n m:2", "P 42/m b c", "P 42/m n m", "P 42/n m c:1",
  "P 42/n m c:2", "P 42/n c m:1", "P 42/n c m:2", "I 4/m m m", "I 4/m c m", "I 41/a m d:1",
  "I 41/a m d:2", "I 41/a c d:1", "I 41/a c d:2", "P 3", "P 31", "P 32",
  "R 3:H", "R 3:R", "P -3", "R -3:H", "R -3:R", "P 3 1 2",
  "P 3 2 1", "P 31 1 2", "P 31 2 1", "P 32 1 2", "P 32 2 1", "R 3 2:H",
  "R 3 2:R", "P 3 m 1", "P 3 1 m", "P 3 c 1", "P 3 1 c", "R 3 m:H",
  "R 3 m:R", "R 3 c:H", "R 3 c:R", "P -3 1 m", "P -3 1 c", "P -3 m 1",
  "P -3 c 1", "R -3 m:H", "R -3 m:R", "R -3 c:H", "R -3 c:R", "P 6",
  "P 61", "P 65", "P 62", "P 64", "P 63", "P -6",
  "P 6/m", "P 63/m", "P 6 2 2", "P 61 2 2", "P 65 2 2", "P 62 2 2",
  "P 64 2 2", "P 63 2 2", "P 6 m m", "P 6 c c", "P 63 c m", "P 63 m c",
  "P -6 m 2", "P -6 c 2", "P -6 2 m", "P -6 2 c", "P 6/m m m", "P 6/m c c",
  "P 63/m c m", "P 63/m m c", "P 2 3", "F 2 3", "I 2 3", "P 21 3",
  "I 21 3", "P m -3", "P n -3:1", "P n -3:2", "F m -3", "F d -3:1",
  "F d -3:2", "I m -3", "P a -3", "I a -3", "P 4 3 2", "P 42 3 2",
  "F 4 3 2", "F 41 3 2", "I 4 3 2", "P 43 3 2", "P 41 3 2", "I 41 3 2",
  "P -4 3 m", "F -4 3 m", "I -4 3 m", "P -4 3 n", "F -4 3 c", "I -4 3 d",
  "P m -3 m", "P n -3 n:1", "P n -3 n:2", "P m -3 n", "P n -3 m:1", "P n -3 m:2",
  "F m -3 m", "F m -3 c", "F d -3 m:1", "F d -3 m:2", "F d -3 c:1", "F d -3 c:2",
  "I m -3 m", "I a -3 d"
]

/-- `HALL_NAME`, src/database/space_group_table.rs:651-1182. -/
def hallName : List String := [
  "P 1", "-P 1", "P 2y", "P 2", "P 2x", "P 2yb",
  "P 2c", "P 2xa", "C 2y", "A 2y", "I 2y", "A 2",
  "B 2", "I 2", "B 2x", "C 2x", "I 2x", "P -2y",
  "P -2", "P -2x", "P -2yc", "P -2yac", "P -2ya", "P -2a",
  "P -2ab", "P -2b", "P -2xb", "P -2xbc", "P -2xc", "C -2y",
  "A -2y", "I -2y", "A -2", "B -2", "I -2", "B -2x",
  "C -2x", "I -2x", "C -2yc", "A -2yac", "I -2ya", "A -2ya",
  "C -2ybc", "I -2yc", "A -2a", "B -2bc", "I -2b", "B -2b",
  "A -2ac", "I -2a", "B -2xb", "C -2xbc", "I -2xc", "C -2xc",
  "B -2xbc", "I -2xb", "-P 2y", "-P 2", "-P 2x", "-P 2yb",
  "-P 2c", "-P 2xa", "-C 2y", "-A 2y", "-I 2y", "-A 2",
  "-B 2", "-I 2", "-B 2x", "-C 2x", "-I 2x", "-P 2yc",
  "-P 2yac", "-P 2ya", "-P 2a", "-P 2ab", "-P 2b", "-P 2xb",
  "-P 2xbc", "-P 2xc", "-P 2ybc", "-P 2yn", "-P 2yab", "-P 2ac",
  "-P 2n", "-P 2bc", "-P 2xab", "-P 2xn", "-P 2xac", "-C 2yc",
  "-A 2yac", "-I 2ya", "-A 2ya", "-C 2ybc", "-I 2yc", "-A 2a",
  "-B 2bc", "-I 2b", "-B 2b", "-A 2ac", "-I 2a", "-B 2xb",
  "-C 2xbc", "-I 2xc", "-C 2xc", "-B 2xbc", "-I 2xb", "P 2 2",
  "P 2c 2", "P 2a 2a", "P 2 2b", "P 2 2ab", "P 2bc 2", "P 2ac 2ac",
  "P 2ac 2ab", "C 2c 2", "A 2a 2a", "B 2 2b", "C 2 2", "A 2 2",
  "B 2 2", "F 2 2", "I 2 2", "I 2ac 2bc", "P 2 -2", "P -2 2",
  "P -2 -2", "P 2c -2", "P 2c -2c", "P -2a 2a", "P -2 2a", "P -2 -2b",
  "P -2b -2", "P 2 -2c", "P -2a 2", "P -2b -2b", "P 2 -2a", "P 2 -2b",
  "P -2b 2", "P -2c 2", "P -2c -2c", "P -2a -2a", "P 2c -2ac", "P 2c -2b",
  "P -2b 2a", "P -2ac 2a", "P -2bc -2c", "P -2a -2ab", "P 2 -2bc", "P 2 -2ac",
  "P -2ac 2", "P -2ab 2", "P -2ab -2ab", "P -2bc -2bc", "P 2ac -2", "P 2bc -2bc",
  "P -2ab 2ab", "P -2 2ac", "P -2 -2bc", "P -2ab -2", "P 2 -2ab", "P -2bc 2",
  "P -2ac -2ac", "P 2c -2n", "P 2c -2ab", "P -2bc 2a", "P -2n 2a", "P -2n -2ac",
  "P -2ac -2n", "P 2 -2n", "P -2n 2", "P -2n -2n", "C 2 -2", "A -2 2",
  "B -2 -2", "C 2c -2", "C 2c -2c", "A -2a 2a", "A -2 2a", "B -2 -2b",
  "B -2b -2", "C 2 -2c", "A -2a 2", "B -2b -2b", "A 2 -2", "B 2 -2",
  "B -2 2", "C -2 2", "C -2 -2", "A -2 -2", "A 2 -2b", "B 2 -2c",
  "B -2c 2", "C -2b 2", "C -2b -2b", "A -2c -2c", "A 2 -2a", "B 2 -2b",
  "B -2b 2", "C -2c 2", "C -2c -2c", "A -2a -2a", "A 2 -2ab", "B 2 -2bc",
  "B -2bc 2", "C -2bc 2", "C -2bc -2bc", "A -2ac -2ac", "F 2 -2", "F -2 2",
  "F -2 -2", "F 2 -2yd", "F -2d 2", "F -2d -2d", "I 2 -2", "I -2 2",
  "I -2 -2", "I 2 -2c", "I -2a 2", "I -2b -2b", "I 2 -2a", "I 2 -2b",
  "I -2b 2", "I -2c 2", "I -2c -2c", "I -2a -2a", "-P 2 2", "P 2 2 -1n",
  "-P 2ab 2bc", "-P 2 2c", "-P 2a 2", "-P 2b 2b", "P 2 2 -1ab", "-P 2ab 2b",
  "P 2 2 -1bc", "-P 2b 2bc", "P 2 2 -1ac", "-P 2a 2c", "-P 2a 2a", "-P 2b 2",
  "-P 2 2b", "-P 2c 2c", "-P 2c 2", "-P 2 2a", "-P 2a 2bc", "-P 2b 2n",
  "-P 2n 2b", "-P 2ab 2c", "-P 2ab 2n", "-P 2n 2bc", "-P 2ac 2", "-P 2bc 2bc",
  "-P 2ab 2ab", "-P 2 2ac", "-P 2 2bc", "-P 2ab 2", "-P 2a 2ac", "-P 2b 2c",
  "-P 2a 2b", "-P 2ac 2c", "-P 2bc 2b", "-P 2b 2ab", "-P 2 2ab", "-P 2bc 2",
  "-P 2ac 2ac", "-P 2ab 2ac", "-P 2ac 2bc", "-P 2bc 2ab", "-P 2c 2b", "-P 2c 2ac",
  "-P 2ac 2a", "-P 2b 2a", "-P 2a 2ab", "-P 2bc 2c", "-P 2 2n", "-P 2n 2",
  "-P 2n 2n", "P 2 2ab -1ab", "-P 2ab 2a", "P 2bc 2 -1bc", "-P 2c 2bc", "P 2ac 2ac -1ac",
  "-P 2c 2a", "-P 2n 2ab", "-P 2n 2c", "-P 2a 2n", "-P 2bc 2n", "-P 2ac 2b",
  "-P 2b 2ac", "-P 2ac 2ab", "-P 2bc 2ac", "-P 2ac 2n", "-P 2bc 2a", "-P 2c 2ab",
  "-P 2n 2ac", "-P 2n 2a", "-P 2c 2n", "-C 2c 2", "-C 2c 2c", "-A 2a 2a",
  "-A 2 2a", "-B 2 2b", "-B 2b 2", "-C 2bc 2", "-C 2bc 2bc", "-A 2ac 2ac",
  "-A 2 2ac", "-B 2 2bc", "-B 2bc 2", "-C 2 2", "-A 2 2", "-B 2 2",
  "-C 2 2c", "-A 2a 2", "-B 2b 2b", "-C 2b 2", "-C 2b 2b", "-A 2c 2c",
  "-A 2 2c", "-B 2 2c", "-B 2c 2", "C 2 2 -1bc", "-C 2b 2bc", "C 2 2 -1bc",
  "-C 2b 2c", "A 2 2 -1ac", "-A 2a 2c", "A 2 2 -1ac", "-A 2ac 2c", "B 2 2 -1bc",
  "-B 2bc 2b", "B 2 2 -1bc", "-B 2b 2bc", "-F 2 2", "F 2 2 -1d", "-F 2uv 2vw",
  "-I 2 2", "-I 2 2c", "-I 2a 2", "-I 2b 2b", "-I 2b 2c", "-I 2a 2b",
  "-I 2b 2", "-I 2a 2a", "-I 2c 2c", "-I 2 2b", "-I 2 2a", "-I 2c 2",
  "P 4", "P 4w", "P 4c", "P 4cw", "I 4", "I 4bw",
  "P -4", "I -4", "-P 4", "-P 4c", "P 4ab -1ab", "-P 4a",
  "P 4n -1n", "-P 4bc", "-I 4", "I 4bw -1bw", "-I 4ad", "P 4 2",
  "P 4ab 2ab", "P 4w 2c", "P 4abw 2nw", "P 4c 2", "P 4n 2n", "P 4cw 2c",
  "P 4nw 2abw", "I 4 2", "I 4bw 2bw", "P 4 -2", "P 4 -2ab", "P 4c -2c",
  "P 4n -2n", "P 4 -2c", "P 4 -2n", "P 4c -2", "P 4c -2ab", "I 4 -2",
  "I 4 -2c", "I 4bw -2", "I 4bw -2c", "P -4 2", "P -4 2c", "P -4 2ab",
  "P -4 2n", "P -4 -2", "P -4 -2c", "P -4 -2ab", "P -4 -2n", "I -4 -2",
  "I -4 -2c", "I -4 2", "I -4 2bw", "-P 4 2", "-P 4 2c", "P 4 2 -1ab",
  "-P 4a 2b", "P 4 2 -1n", "-P 4a 2bc", "-P 4 2ab", "-P 4 2n", "P 4ab 2ab -1ab",
  "-P 4a 2a", "P 4ab 2n -1ab", "-P 4a 2ac", "-P 4c 2", "-P 4c 2c", "P 4n 2c -1n",
  "-P 4ac 2b", "P 4n 2 -1n", "-P 4ac 2bc", "-P 4c 2ab", "-P 4n 2n", "P 4n 2n -1n",
  "-P 4ac 2a", "P 4n 2ab -1n", "-P 4ac 2ac", "-I 4 2", "-I 4 2c", "I 4bw 2bw -1bw",
  "-I 4bd 2", "I 4bw 2aw -1bw", "-I 4bd 2c", "P 3", "P 31", "P 32",
  "R 3", "P 3*", "-P 3", "-R 3", "-P 3*", "P 3 2",
  "P 3 2\"", "P 31 2c (0 0 1)", "P 31 2\"", "P 32 2c (0 0 -1)", "P 32 2\"", "R 3 2\"",
  "P 3* 2", "P 3 -2\"", "P 3 -2", "P 3 -2\"c", "P 3 -2c", "R 3 -2\"",
  "P 3* -2", "R 3 -2\"c", "P 3* -2n", "-P 3 2", "-P 3 2c", "-P 3 2\"",
  "-P 3 2\"c", "-R 3 2\"", "-P 3* 2", "-R 3 2\"c", "-P 3* 2n", "P 6",
  "P 61", "P 65", "P 62", "P 64", "P 6c", "P -6",
  "-P 6", "-P 6c", "P 6 2", "P 61 2 (0 0 -1)", "P 65 2 (0 0 1)", "P 62 2c (0 0 1)",
  "P 64 2c (0 0 -1)", "P 6c 2c", "P 6 -2", "P 6 -2c", "P 6c -2", "P 6c -2c",
  "P -6 2", "P -6c 2", "P -6 -2", "P -6c -2c", "-P 6 2", "-P 6 2c",
  "-P 6c 2", "-P 6c 2c", "P 2 2 3", "F 2 2 3", "I 2 2 3", "P 2ac 2ab 3",
  "I 2b 2c 3", "-P 2 2 3", "P 2 2 3 -1n", "-P 2ab 2bc 3", "-F 2 2 3", "F 2 2 3 -1d",
  "-F 2uv 2vw 3", "-I 2 2 3", "-P 2ac 2ab 3", "-I 2b 2c 3", "P 4 2 3", "P 4n 2 3",
  "F 4 2 3", "F 4d 2 3", "I 4 2 3", "P 4acd 2ab 3", "P 4bd 2ab 3", "I 4bd 2c 3",
  "P -4 2 3", "F -4 2 3", "I -4 2 3", "P -4n 2 3", "F -4c 2 3", "I -4bd 2c 3",
  "-P 4 2 3", "P 4 2 3 -1n", "-P 4a 2bc 3", "-P 4n 2 3", "P 4n 2 3 -1n", "-P 4bc 2bc 3",
  "-F 4 2 3", "-F 4c 2 3", "F 4d 2 3 -1d", "-F 4vw 2vw 3", "F 4d 2 3 -1cd", "-F 4cvw 2vw 3",
  "-I 4 2 3", "-I 4bd 2c 3"
]

/-- `DEFAULT_NUMBER_AND_CHOICE`, src/database/space_group_table.rs:1184-1203. -/
def defaultNumberAndChoice : List String := [
  "1", "2", "3:b", "4:b", "5:b1", "6:b", "7:b1", "8:b1", "9:b1", "10:b",
  "11:b", "12:b1", "13:b1", "14:b1", "15:b1", "16", "17", "18", "19", "20",
  "21", "22", "23", "24", "25", "26", "27", "28", "29", "30",
  "31", "32", "33", "34", "35", "36", "37", "38", "39", "40",
  "41", "42", "43", "44", "45", "46", "47", "48:1", "49", "50:1",
  "51", "52", "53", "54", "55", "56", "57", "58", "59:1", "60",
  "61", "62", "63", "64", "65", "66", "67", "68:1", "69", "70:1",
  "71", "72", "73", "74", "75", "76", "77", "78", "79", "80",
  "81", "82", "83", "84", "85:1", "86:1", "87", "88:1", "89", "90",
  "91", "92", "93", "94", "95", "96", "97", "98", "99", "100",
  "101", "102", "103", "104", "105", "106", "107", "108", "109", "110",
  "111", "112", "113", "114", "115", "116", "117", "118", "119", "120",
  "121", "122", "123", "124", "125:1", "126:1", "127", "128", "129:1", "130:1",
  "131", "132", "133:1", "134:1", "135", "136", "137:1", "138:1", "139", "140",
  "141:1", "142:1", "143", "144", "145", "146:H", "147", "148:H", "149", "150",
  "151", "152", "153", "154", "155:H", "156", "157", "158", "159", "160:H",
  "161:H", "162", "163", "164", "165", "166:H", "167:H", "168", "169", "170",
  "171", "172", "173", "174", "175", "176", "177", "178", "179", "180",
  "181", "182", "183", "184", "185", "186", "187", "188", "189", "190",
  "191", "192", "193", "194", "195", "196", "197", "198", "199", "200",
  "201:1", "202", "203:1", "204", "205", "206", "207", "208", "209", "210",
  "211", "212", "213", "214", "215", "216", "217", "218", "219", "220",
  "221", "222:1", "223", "224:1", "225", "226", "227:1", "228:1", "229", "230"
]

/-- `DEFAULT_HM_FULL`, src/database/space_group_table.rs:1205-1436. -/
def defaultHmFull : List String := [
  "P 1       ", "P -1      ", "P 1 2 1   ", "P 1 21 1  ", "C 1 2 1   ", "P 1 m 1   ",
  "P 1 c 1   ", "C 1 m 1   ", "C 1 c 1   ", "P 1 2", "P 1 21", "C 1 2",
  "P 1 2", "P 1 21", "C 1 2", "P 2 2 2   ", "P 2 2 21  ", "P 21 21 2 ",
  "P 21 21 21", "C 2 2 21  ", "C 2 2 2   ", "F 2 2 2   ", "I 2 2 2   ", "I 21 21 21",
  "P m m 2   ", "P m c 21  ", "P c c 2   ", "P m a 2   ", "P c a 21  ", "P n c 2   ",
  "P m n 21  ", "P b a 2   ", "P n a 21  ", "P n n 2   ", "C m m 2   ", "C m c 21  ",
  "C c c 2   ", "A m m 2   ", "A b m 2   ", "A m a 2   ", "A b a 2   ", "F m m 2   ",
  "F d d 2   ", "I m m 2   ", "I b a 2   ", "I m a 2   ", "P m m m   ", "P n n n:1 ",
  "P c c m   ", "P b a n:1 ", "P m m a   ", "P n n a   ", "P m n a   ", "P c c a   ",
  "P b a m   ", "P c c n   ", "P b c m   ", "P n n m   ", "P m m n:1 ", "P b c n   ",
  "P b c a   ", "P n m a   ", "C m c m   ", "C m c a   ", "C m m m   ", "C c c m   ",
  "C m m a   ", "C c c a:1 ", "F m m m   ", "F d d d:1 ", "I m m m   ", "I b a m   ",
  "I b c a   ", "I m m a   ", "P 4       ", "P 41      ", "P 42      ", "P 43      ",
  "I 4       ", "I 41      ", "P -4      ", "I -4      ", "P 4", "P 42",
  "P 4", "P 42", "I 4", "I 41", "P 4 2 2   ", "P 42 1 2  ",
  "P 41 2 2  ", "P 41 21 2 ", "P 42 2 2  ", "P 42 21 2 ", "P 43 2 2  ", "P 43 21 2 ",
  "I 4 2 2   ", "I 41 2 2  ", "P 4 m m   ", "P 4 b m   ", "P 42 c m  ", "P 42 n m  ",
  "P 4 c c   ", "P 4 n c   ", "P 42 m c  ", "P 42 b c  ", "I 4 m m   ", "I 4 c m   ",
  "I 41 m d  ", "I 41 c d  ", "P -4 2 m  ", "P -4 2 c  ", "P -4 21 m ", "P -4 21 c ",
  "P -4 m 2  ", "P -4 c 2  ", "P -4 b 2  ", "P -4 n 2  ", "I -4 m 2  ", "I -4 c 2  ",
  "I -4 2 m  ", "I -4 2 d  ", "P 4", "P 4", "P 4", "P 4",
  "P 4", "P 4", "P 4", "P 4", "P 42", "P 42",
  "P 42", "P 42", "P 42", "P 42", "P 42", "P 42",
  "I 4", "I 4", "I 41", "I 41", "P 3       ", "P 31      ",
  "P 32      ", "R 3:H     ", "P -3      ", "R -3:H    ", "P 3 1 2   ", "P 3 2 1   ",
  "P 31 1 2  ", "P 31 2 1  ", "P 32 1 2  ", "P 32 2 1  ", "R 32:H    ", "P 3 m 1   ",
  "P 3 1 m   ", "P 3 c 1   ", "P 3 1 c   ", "R 3 m:H   ", "R 3 c:H   ", "P -3 1 m  ",
  "P -3 1 c  ", "P -3 m 1  ", "P -3 c 1  ", "R -3 m:H  ", "R -3 c:H  ", "P 6       ",
  "P 61      ", "P 65      ", "P 62      ", "P 64      ", "P 63      ", "P -6      ",
  "P 6", "P 63", "P 6 2 2   ", "P 61 2 2  ", "P 65 2 2  ", "P 62 2 2  ",
  "P 64 2 2  ", "P 63 2 2  ", "P 6 m m   ", "P 6 c c   ", "P 63 c m  ", "P 63 m c  ",
  "P -6 m 2  ", "P -6 c 2  ", "P -6 2 m  ", "P -6 2 c  ", "P 6", "P 6",
  "P 63", "P 63", "P 2 3     ", "F 2 3     ", "I 2 3     ", "P 21 3    ",
  "I 21 3    ", "P m -3    ", "P n -3:1  ", "F m -3    ", "F d -3:1  ", "I m -3    ",
  "P a -3    ", "I a -3    ", "P 4 3 2   ", "P 42 3 2  ", "F 4 3 2   ", "F 41 3 2  ",
  "I 4 3 2   ", "P 43 3 2  ", "P 41 3 2  ", "I 41 3 2  ", "P -4 3 m  ", "F -4 3 m  ",
  "I -4 3 m  ", "P -4 3 n  ", "F -4 3 c  ", "I -4 3 d  ", "P m -3 m  ", "P n -3 n:1",
  "P m -3 n  ", "P n -3 m:1", "F m -3 m  ", "F m -3 c  ", "F d -3 m:1", "F d -3 c:1",
  "I m -3 m  ", "I a -3 d  "
]

/-- `DEFAULT_HALL_NAME`, src/database/space_group_table.rs:1438-1669. -/
def defaultHallName : List String := [
  "P 1", "-P 1", "P 2y", "P 2yb", "C 2y", "P -2y",
  "P -2yc", "C -2y", "C -2yc", "-P 2y", "-P 2yb", "-C 2y",
  "-P 2yc", "-P 2ybc", "-C 2yc", "P 2 2", "P 2c 2", "P 2 2ab",
  "P 2ac 2ab", "C 2c 2", "C 2 2", "F 2 2", "I 2 2", "I 2ac 2ab",
  "P 2 -2", "P 2c -2", "P 2 -2c", "P 2 -2a", "P 2c -2ac", "P 2 -2bc",
  "P 2ac -2", "P 2 -2ab", "P 2c -2n", "P 2 -2n", "C 2 -2", "C 2c -2",
  "C 2 -2c", "A 2 -2", "A 2 -2b", "A 2 -2a", "A 2 -2ab", "F 2 -2",
  "F 2 -2yd", "I 2 -2", "I 2 -2c", "I 2 -2a", "-P 2 2", "-P 2ab 2bc",
  "-P 2 2c", "-P 2ab 2b", "-P 2a 2a", "-P 2a 2bc", "-P 2ac 2", "-P 2a 2ac",
  "-P 2 2ab", "-P 2ab 2ac", "-P 2c 2b", "-P 2 2n", "-P 2ab 2a", "-P 2n 2ab",
  "-P 2ac 2ab", "-P 2ac 2n", "-C 2c 2", "-C 2bc 2", "-C 2 2", "-C 2 2c",
  "-C 2a 2", "-C 2b 2ac", "-F 2 2", "-F 2uv 2vw", "-I 2 2", "-I 2 2c",
  "-I 2b 2c", "-I 2b 2", "P 4", "P 41", "P 4c", "P 43",
  "I 4", "I 41b", "P -4", "I -4", "-P 4", "-P 4c",
  "-P 4a", "-P 4bc", "-I 4", "-I 4ad", "P 4 2", "P 4ab 2ab",
  "P 41 2c", "P 43n 2nw", "P 4c 2", "P 4n 2n", "P 43 2c", "P 41n 2abw",
  "I 4 2", "I 41b 2bw", "P 4 -2", "P 4 -2ab", "P 4c -2c", "P 4n -2n",
  "P 4 -2c", "P 4 -2n", "P 4c -2", "P 4c -2ab", "I 4 -2", "I 4 -2ab",
  "I 41b -2", "I 41b -2c", "P -4 2", "P -4 2c", "P -4 2ab", "P -4 2n",
  "P -4 -2", "P -4 -2c", "P -4 -2ab", "P -4 -2n", "I -4 -2", "I -4 -2c",
  "I -4 2", "I -4 2bw", "-P 4 2", "-P 4 2c", "-P 4a 2b", "-P 4a 2bc",
  "-P 4 2ab", "-P 4 2n", "-P 4a 2a", "-P 4a 2ac", "-P 4c 2", "-P 4c 2c",
  "-P 4ac 2b", "-P 4ac 2bc", "-P 4c 2ab", "-P 4n 2n", "-P 4ac 2a", "-P 4ac 2ac",
  "-I 4 2", "-I 4 2c", "-I 4bd 2", "-I 4bd 2c", "P 3", "P 31",
  "P 32", "R 3", "-P 3", "-R 3", "P 3 2", "P 3 2\"",
  "P 31 2c (0 0 1)", "P 31 2\"", "P 32 2c (0 0 -1)", "P 32 2\"", "R 3 2\"", "P 3 -2\"",
  "P 3 -2", "P 3 -2\"c", "P 3 -2c", "R 3 -2\"", "R 3 -2\"c", "-P 3 2",
  "-P 3 2c", "-P 3 2\"", "-P 3 2\"c", "-R 3 2\"", "-R 3 2\"c", "P 6",
  "P 61", "P 65", "P 62", "P 64", "P 6c", "P -6",
  "-P 6", "-P 6c", "P 6 2", "P 61 2 (0 0 -1)", "P 65 2 (0 0 1)", "P 62 2c (0 0 1)",
  "P 64 2c (0 0 -1)", "P 6c 2c", "P 6 -2", "P 6 -2c", "P 6c -2", "P 6c -2c",
  "P -6 2", "P -6c 2", "P -6 -2", "P -6c -2c", "-P 6 2", "-P 6 2c",
  "-P 6c 2", "-P 6c 2c", "P 2 2 3", "F 2 2 3", "I 2 2 3", "P 2ac 2ab 3",
  "I 2b 2c 3", "-P 2 2 3", "-P 2ab 2bc 3", "-F 2 2 3", "-F 2uv 2vw 3", "-I 2 2 3",
  "-P 2ac 2ab 3", "-I 2b 2c 3", "P 4 2 3", "P 4n 2 3", "F 4 2 3", "F 4d 2 3",
  "I 4 2 3", "P 4acd 2ab 3", "P 4bd 2ab 3", "I 4bd 2c 3", "P -4 2 3", "F -4 2 3",
  "I -4 2 3", "P -4n 2 3", "F -4c 2 3", "I -4bd 2c 3", "-P 4 2 3", "-P 4a 2bc 3",
  "-P 4n 2 3", "-P 4bc 2bc 3", "-F 4 2 3", "-F 4c 2 3", "-F 4vw 2vw 3", "-F 4ud 2vw 3",
  "-I 4 2 3", "-I 4bd 2c 3"
]

/-- The variant names of `SpaceGroupHallSymbol` in declaration order, src/database/mod.rs:13-545. -/
def variantNames : List String := [
  "P_1", "MP_1", "P_2y", "P_2", "P_2x", "P_2yb",
  "P_2c", "P_2xa", "C_2y", "A_2y", "I_2y", "A_2",
  "B_2", "I_2", "B_2x", "C_2x", "I_2x", "P_M2y",
  "P_M2", "P_M2x", "P_M2yc", "P_M2yac", "P_M2ya", "P_M2a",
  "P_M2ab", "P_M2b", "P_M2xb", "P_M2xbc", "P_M2xc", "C_M2y",
  "A_M2y", "I_M2y", "A_M2", "B_M2", "I_M2", "B_M2x",
  "C_M2x", "I_M2x", "C_M2yc", "A_M2yac", "I_M2ya", "A_M2ya",
  "C_M2ybc", "I_M2yc", "A_M2a", "B_M2bc", "I_M2b", "B_M2b",
  "A_M2ac", "I_M2a", "B_M2xb", "C_M2xbc", "I_M2xc", "C_M2xc",
  "B_M2xbc", "I_M2xb", "MP_2y", "MP_2", "MP_2x", "MP_2yb",
  "MP_2c", "MP_2xa", "MC_2y", "MA_2y", "MI_2y", "MA_2",
  "MB_2", "MI_2", "MB_2x", "MC_2x", "MI_2x", "MP_2yc",
  "MP_2yac", "MP_2ya", "MP_2a", "MP_2ab", "MP_2b", "MP_2xb",
  "MP_2xbc", "MP_2xc", "MP_2ybc", "MP_2yn", "MP_2yab", "MP_2ac",
  "MP_2n", "MP_2bc", "MP_2xab", "MP_2xn", "MP_2xac", "MC_2yc",
  "MA_2yac", "MI_2ya", "MA_2ya", "MC_2ybc", "MI_2yc", "MA_2a",
  "MB_2bc", "MI_2b", "MB_2b", "MA_2ac", "MI_2a", "MB_2xb",
  "MC_2xbc", "MI_2xc", "MC_2xc", "MB_2xbc", "MI_2xb", "P_2_2",
  "P_2c_2", "P_2a_2a", "P_2_2b", "P_2_2ab", "P_2bc_2", "P_2ac_2ac",
  "P_2ac_2ab", "C_2c_2", "A_2a_2a", "B_2_2b", "C_2_2", "A_2_2",
  "B_2_2", "F_2_2", "I_2_2", "I_2b_2c", "P_2_M2", "P_M2_2",
  "P_M2_M2", "P_2c_M2", "P_2c_M2c", "P_M2a_2a", "P_M2_2a", "P_M2_M2b",
  "P_M2b_M2", "P_2_M2c", "P_M2a_2", "P_M2b_M2b", "P_2_M2a", "P_2_M2b",
  "P_M2b_2", "P_M2c_2", "P_M2c_M2c", "P_M2a_M2a", "P_2c_M2ac", "P_2c_M2b",
  "P_M2b_2a", "P_M2ac_2a", "P_M2bc_M2c", "P_M2a_M2ab", "P_2_M2bc", "P_2_M2ac",
  "P_M2ac_2", "P_M2ab_2", "P_M2ab_M2ab", "P_M2bc_M2bc", "P_2ac_M2", "P_2bc_M2bc",
  "P_M2ab_2ab", "P_M2_2ac", "P_M2_M2bc", "P_M2ab_M2", "P_2_M2ab", "P_M2bc_2",
  "P_M2ac_M2ac", "P_2c_M2n", "P_2c_M2ab", "P_M2bc_2a", "P_M2n_2a", "P_M2n_M2ac",
  "P_M2ac_M2n", "P_2_M2n", "P_M2n_2", "P_M2n_M2n", "C_2_M2", "A_M2_2",
  "B_M2_M2", "C_2c_M2", "C_2c_M2c", "A_M2a_2a", "A_M2_2a", "B_M2_M2b",
  "B_M2b_M2", "C_2_M2c", "A_M2a_2", "B_M2b_M2b", "A_2_M2", "B_2_M2",
  "B_M2_2", "C_M2_2", "C_M2_M2", "A_M2_M2", "A_2_M2c", "B_2_M2c",
  "B_M2c_2", "C_M2b_2", "C_M2b_M2b", "A_M2c_M2c", "A_2_M2a", "B_2_M2b",
  "B_M2b_2", "C_M2c_2", "C_M2c_M2c", "A_M2a_M2a", "A_2_M2ac", "B_2_M2bc",
  "B_M2bc_2", "C_M2bc_2", "C_M2bc_M2bc", "A_M2ac_M2ac", "F_2_M2", "F_M2_2",
  "F_M2_M2", "F_2_M2d", "F_M2d_2", "F_M2d_M2d", "I_2_M2", "I_M2_2",
  "I_M2_M2", "I_2_M2c", "I_M2a_2", "I_M2b_M2b", "I_2_M2a", "I_2_M2b",
  "I_M2b_2", "I_M2c_2", "I_M2c_M2c", "I_M2a_M2a", "MP_2_2", "P_2_2_M1n",
  "MP_2ab_2bc", "MP_2_2c", "MP_2a_2", "MP_2b_2b", "P_2_2_M1ab", "MP_2ab_2b",
  "P_2_2_M1bc", "MP_2b_2bc", "P_2_2_M1ac", "MP_2a_2c", "MP_2a_2a", "MP_2b_2",
  "MP_2_2b", "MP_2c_2c", "MP_2c_2", "MP_2_2a", "MP_2a_2bc", "MP_2b_2n",
  "MP_2n_2b", "MP_2ab_2c", "MP_2ab_2n", "MP_2n_2bc", "MP_2ac_2", "MP_2bc_2bc",
  "MP_2ab_2ab", "MP_2_2ac", "MP_2_2bc", "MP_2ab_2", "MP_2a_2ac", "MP_2b_2c",
  "MP_2a_2b", "MP_2ac_2c", "MP_2bc_2b", "MP_2b_2ab", "MP_2_2ab", "MP_2bc_2",
  "MP_2ac_2ac", "MP_2ab_2ac", "MP_2ac_2bc", "MP_2bc_2ab", "MP_2c_2b", "MP_2c_2ac",
  "MP_2ac_2a", "MP_2b_2a", "MP_2a_2ab", "MP_2bc_2c", "MP_2_2n", "MP_2n_2",
  "MP_2n_2n", "P_2_2ab_M1ab", "MP_2ab_2a", "P_2bc_2_M1bc", "MP_2c_2bc", "P_2ac_2ac_M1ac",
  "MP_2c_2a", "MP_2n_2ab", "MP_2n_2c", "MP_2a_2n", "MP_2bc_2n", "MP_2ac_2b",
  "MP_2b_2ac", "MP_2ac_2ab", "MP_2bc_2ac", "MP_2ac_2n", "MP_2bc_2a", "MP_2c_2ab",
  "MP_2n_2ac", "MP_2n_2a", "MP_2c_2n", "MC_2c_2", "MC_2c_2c", "MA_2a_2a",
  "MA_2_2a", "MB_2_2b", "MB_2b_2", "MC_2bc_2", "MC_2bc_2bc", "MA_2ac_2ac",
  "MA_2_2ac", "MB_2_2bc", "MB_2bc_2", "MC_2_2", "MA_2_2", "MB_2_2",
  "MC_2_2c", "MA_2a_2", "MB_2b_2b", "MC_2b_2", "MC_2b_2b", "MA_2c_2c",
  "MA_2_2c", "MB_2_2c", "MB_2c_2", "C_2_2_M1bc_1", "MC_2b_2bc", "C_2_2_M1bc_2",
  "MC_2b_2c", "A_2_2_M1ac_1", "MA_2a_2c", "A_2_2_M1ac_2", "MA_2ac_2c", "B_2_2_M1bc_1",
  "MB_2bc_2b", "B_2_2_M1bc_2", "MB_2b_2bc", "MF_2_2", "F_2_2_M1d", "MF_2uv_2vw",
  "MI_2_2", "MI_2_2c", "MI_2a_2", "MI_2b_2b", "MI_2b_2c", "MI_2a_2b",
  "MI_2b_2", "MI_2a_2a", "MI_2c_2c", "MI_2_2b", "MI_2_2a", "MI_2c_2",
  "P_4", "P_4w", "P_4c", "P_4cw", "I_4", "I_4bw",
  "P_M4", "I_M4", "MP_4", "MP_4c", "P_4ab_M1ab", "MP_4a",
  "P_4n_M1n", "MP_4bc", "MI_4", "I_4bw_M1bw", "MI_4ad", "P_4_2",
  "P_4ab_2ab", "P_4w_2c", "P_4abw_2nw", "P_4c_2", "P_4n_2n", "P_4cw_2c",
  "P_4nw_2abw", "I_4_2", "I_4bw_2bw", "P_4_M2", "P_4_M2ab", "P_4c_M2c",
  "P_4n_M2n", "P_4_M2c", "P_4_M2n", "P_4c_M2", "P_4c_M2ab", "I_4_M2",
  "I_4_M2c", "I_4bw_M2", "I_4bw_M2c", "P_M4_2", "P_M4_2c", "P_M4_2ab",
  "P_M4_2n", "P_M4_M2", "P_M4_M2c", "P_M4_M2ab", "P_M4_M2n", "I_M4_M2",
  "I_M4_M2c", "I_M4_2", "I_M4_2bw", "MP_4_2", "MP_4_2c", "P_4_2_M1ab",
  "MP_4a_2b", "P_4_2_M1n", "MP_4a_2bc", "MP_4_2ab", "MP_4_2n", "P_4ab_2ab_M1ab",
  "MP_4a_2a", "P_4ab_2n_M1ab", "MP_4a_2ac", "MP_4c_2", "MP_4c_2c", "P_4n_2c_M1n",
  "MP_4ac_2b", "P_4n_2_M1n", "MP_4ac_2bc", "MP_4c_2ab", "MP_4n_2n", "P_4n_2n_M1n",
  "MP_4ac_2a", "P_4n_2ab_M1n", "MP_4ac_2ac", "MI_4_2", "MI_4_2c", "I_4bw_2bw_M1bw",
  "MI_4bd_2", "I_4bw_2aw_M1bw", "MI_4bd_2c", "P_3", "P_31", "P_32",
  "R_3", "P_3A", "MP_3", "MR_3", "MP_3A", "P_3_2",
  "P_3_2D", "P_31_2c_0_0_1", "P_31_2D", "P_32_2c_0_0_M1", "P_32_2D", "R_3_2D",
  "P_3A_2", "P_3_M2D", "P_3_M2", "P_3_M2Dc", "P_3_M2c", "R_3_M2D",
  "P_3A_M2", "R_3_M2Dc", "P_3A_M2n", "MP_3_2", "MP_3_2c", "MP_3_2D",
  "MP_3_2Dc", "MR_3_2D", "MP_3A_2", "MR_3_2Dc", "MP_3A_2n", "P_6",
  "P_61", "P_65", "P_62", "P_64", "P_6c", "P_M6",
  "MP_6", "MP_6c", "P_6_2", "P_61_2_0_0_M1", "P_65_2_0_0_1", "P_62_2c_0_0_1",
  "P_64_2c_0_0_M1", "P_6c_2c", "P_6_M2", "P_6_M2c", "P_6c_M2", "P_6c_M2c",
  "P_M6_2", "P_M6c_2", "P_M6_M2", "P_M6c_M2c", "MP_6_2", "MP_6_2c",
  "MP_6c_2", "MP_6c_2c", "P_2_2_3", "F_2_2_3", "I_2_2_3", "P_2ac_2ab_3",
  "I_2b_2c_3", "MP_2_2_3", "P_2_2_3_M1n", "MP_2ab_2bc_3", "MF_2_2_3", "F_2_2_3_M1d",
  "MF_2uv_2vw_3", "MI_2_2_3", "MP_2ac_2ab_3", "MI_2b_2c_3", "P_4_2_3", "P_4n_2_3",
  "F_4_2_3", "F_4d_2_3", "I_4_2_3", "P_4acd_2ab_3", "P_4bd_2ab_3", "I_4bd_2c_3",
  "P_M4_2_3", "F_M4_2_3", "I_M4_2_3", "P_M4n_2_3", "F_M4c_2_3", "I_M4bd_2c_3",
  "MP_4_2_3", "P_4_2_3_M1n", "MP_4a_2bc_3", "MP_4n_2_3", "P_4n_2_3_M1n", "MP_4bc_2bc_3",
  "MF_4_2_3", "MF_4c_2_3", "F_4d_2_3_M1d", "MF_4vw_2vw_3", "F_4d_2_3_M1cd", "MF_4cvw_2vw_3",
  "MI_4_2_3", "MI_4bd_2c_3"
]

end Verif.Data
