[
[
[
1
],
[]
],
[
[
2
],
[]
],
[
[
3,
4,
5
],
[
[
[
"2"
],
null,
[
[
true,
[
"T",
2,
[
[
false,
[
[
1,
[
0
]
],
[
-1,
[]
]
]
]
]
]
]
]
],
[
[
"2"
],
null,
[
[
true,
[
"L",
2,
[
[
true,
[
0,
0
],
[]
]
]
]
]
]
]
]
],
[
[
6,
7,
8,
9
],
[
[
[
"M"
],
null,
[
[
true,
[
"T",
2,
[
[
false,
[
[
1,
[
0
]
],
[
-1,
[]
]
]
]
]
]
]
]
],
[
[
"M"
],
null,
[
[
true,
[
"L",
2,
[
[
true,
[
0,
0
],
[]
]
]
]
]
]
]
]
],
[
[
10,
11,
12,
13,
14,
15
],
[
[
[
"M"
],
null,
[
[
true,
[
"L",
2,
[
[
true,
[
0,
0
],
[]
]
]
]
]
]
],
[
[
"2"
],
null,
[
[
true,
[
"T",
2,
[
[
false,
[
[
1,
[
0
]
],
[
-1,
[]
]
]
]
]
]
]
]
],
[
[
"2"
],
null,
[
[
true,
[
"L",
2,
[
[
true,
[
0,
0
],
[]
]
]
]
]
]
]
]
],
[
[
16,
17,
18,
19,
20,
21,
22,
23,
24
],
[
[
[
"2"
],
null,
[
[
true,
[
"T",
2,
[
[
false,
[
[
1,
[
0
]
],
[
-1,
[]
]
]
]
]
]
]
]
],
[
[
"2",
"2"
],
"2",
[
[
false,
[
"T",
2,
[
[
false,
[
[
1,
[
0
]
],
[
-1,
[
1
]
]
]
]
]
]
],
[
true,
[
"L",
2,
[
[
true,
[
0,
0
],
[
1,
1
]
]
]
]
]
]
],
[
[
"2",
"2"
],
"2",
[
[
true,
[
"L",
2,
[
[
true,
[
0,
1,
0,
1
],
[]
]
]
]
],
[
false,
[
"L",
2,
[
[
true,
[
0,
0
],
[
1,
1
]
],
[
true,
[
0,
1,
0,
1
],
[]
]
]
]
]
]
],
[
[
"2",
"2"
],
"2",
[
[
true,
[
"T",
2,
[
[
false,
[
[
1,
[
0
]
],
[
-1,
[]
]
]
],
[
true,
[
[
1,
[
1
]
],
[
-1,
[]
]
]
]
]
]
]
]
]
]
],
[
[
25,
26,
27,
28,
29,
30,
31,
32,
33,
34,
35,
36,
37,
38,
39,
40,
41,
42,
43,
44,
45,
46
],
[
[
[
"M"
],
null,
[
[
false,
[
"L",
2,
[
[
true,
[
0,
0
],
[]
]
]
]
],
[
false,
[
"T",
2,
[
[
false,
[
[
1,
[
0
]
],
[
-1,
[]
]
]
]
]
]
]
]
],
[
[
"2",
"M"
],
"M",
[
[
false,
[
"T",
2,
[
[
true,
[
[
1,
[
0
]
],
[
-1,
[]
]
]
],
[
false,
[
[
1,
[
1
]
],
[
-1,
[]
]
]
]
]
]
],
[
true,
[
"L",
2,
[
[
true,
[
0,
0
],
[
0,
1,
0,
1
]
]
]
]
]
]
],
[
[
"2",
"M"
],
"M",
[
[
false,
[
"L",
2,
[
[
true,
[
0,
1,
0,
1
],
[]
]
]
]
],
[
true,
[
"L",
2,
[
[
true,
[
0,
0
],
[
0,
1,
0,
1,
0,
1,
0,
1
]
]
]
]
]
]
],
[
[
"M",
"M"
],
"2",
[
[
false,
[
"T",
2,
[
[
false,
[
[
1,
[
0
]
],
[
-1,
[
1
]
]
]
]
]
]
],
[
true,
[
"L",
4,
[
[
true,
[
0,
1,
1
],
[
1,
1,
0
]
]
]
]
]
]
],
[
[
"2",
"M"
],
"M",
[
[
false,
[
"L",
2,
[
[
true,
[
0,
1,
0,
1
],
[]
]
]
]
],
[
true,
[
"L",
2,
[
[
true,
[
0,
1
],
[
1,
0
]
]
]
]
]
]
],
[
[
"2",
"M"
],
"M",
[
[
false,
[
"T",
2,
[
[
false,
[
[
1,
[
0
]
],
[
-1,
[
1
]
]
]
]
]
]
],
[
true,
[
"L",
4,
[
[
true,
[
1,
1,
0,
1,
1
],
[
0
]
]
]
]
]
]
],
[
[
"M"
],
null,
[
[
true,
[
"L",
2,
[
[
true,
[
0,
0
],
[]
]
]
]
]
]
]
]
],
[
[
47,
48,
49,
50,
51,
52,
53,
54,
55,
56,
57,
58,
59,
60,
61,
62,
63,
64,
65,
66,
67,
68,
69,
70,
71,
72,
73,
74
],
[
[
[
"2"
],
null,
[
[
false,
[
"L",
2,
[
[
true,
[
0,
0
],
[]
]
]
]
]
]
],
[
[
"2",
"M"
],
"M",
[
[
true,
[
"L",
2,
[
[
true,
[
0,
0
],
[
1,
1
]
],
[
true,
[
0,
1,
0,
1
],
[]
]
]
]
]
]
],
[
[
"2",
"M"
],
"M",
[
[
false,
[
"L",
2,
[
[
true,
[
0,
1,
0,
1
],
[]
]
]
]
],
[
true,
[
"L",
2,
[
[
true,
[
0,
0
],
[
1,
1
]
]
]
]
]
]
],
[
[
"2"
],
null,
[
[
true,
[
"L",
2,
[
[
true,
[
0,
0
],
[]
]
]
]
],
[
false,
[
"T",
2,
[
[
false,
[
[
1,
[
0
]
],
[
-1,
[]
]
]
]
]
]
]
]
],
[
[
"2",
"M"
],
"M",
[
[
false,
[
"T",
2,
[
[
true,
[
[
1,
[
0
]
],
[
-1,
[]
]
]
],
[
false,
[
[
1,
[
1
]
],
[
-1,
[]
]
]
]
]
]
],
[
true,
[
"L",
2,
[
[
true,
[
1,
1
],
[
0,
1,
0,
1
]
]
]
]
]
]
],
[
[
"M"
],
null,
[
[
true,
[
"L",
2,
[
[
true,
[
0,
0
],
[]
]
]
]
],
[
false,
[
"T",
2,
[
[
false,
[
[
1,
[
0
]
],
[
-1,
[]
]
]
]
]
]
]
]
],
[
[
"2",
"2"
],
"2",
[
[
true,
[
"T",
2,
[
[
false,
[
[
1,
[
0
]
],
[
-1,
[
1
]
]
]
]
]
]
],
[
true,
[
"L",
2,
[
[
true,
[
0,
0
],
[
1,
1
]
],
[
true,
[
0,
1,
0,
1
],
[]
]
]
]
]
]
],
[
[
"2",
"M"
],
"M",
[
[
true,
[
"L",
4,
[
[
true,
[
0,
1,
1
],
[
1,
1,
0
]
]
]
]
]
]
]
]
],
[
[
75,
76,
77,
78,
79,
80
],
[
[
[
"4"
],
null,
[
[
true,
[
"L",
2,
[
[
true,
[
0,
0,
0,
0
],
[]
]
]
]
]
]
],
[
[
"2"
],
null,
[
[
true,
[
"T",
2,
[
[
false,
[
[
1,
[
0
]
],
[
-1,
[]
]
]
]
]
]
]
]
],
[
[
"4"
],
null,
[
[
true,
[
"L",
4,
[
[
true,
[
0,
0,
0,
0
],
[]
]
]
]
]
]
]
]
],
[
[
81,
82
],
[
[
[
"2"
],
null,
[
[
true,
[
"T",
2,
[
[
false,
[
[
1,
[
0
]
],
[
-1,
[]
]
]
]
]
]
]
]
]
]
],
[
[
83,
84,
85,
86,
87,
88
],
[
[
[
"M"
],
null,
[
[
true,
[
"L",
2,
[
[
true,
[
0,
0
],
[]
]
]
]
]
]
],
[
[
"2"
],
null,
[
[
true,
[
"T",
2,
[
[
false,
[
[
1,
[
0
]
],
[
-1,
[]
]
]
]
]
]
]
]
],
[
[
"4"
],
null,
[
[
true,
[
"L",
4,
[
[
true,
[
0,
0,
0,
0
],
[]
]
]
]
]
]
]
]
],
[
[
89,
90,
91,
92,
93,
94,
95,
96,
97,
98
],
[
[
[
"4"
],
null,
[
[
true,
[
"L",
2,
[
[
true,
[
0,
0,
0,
0
],
[]
]
]
]
]
]
],
[
[
"2",
"2"
],
"4",
[
[
true,
[
"L",
2,
[
[
true,
[
0,
0
],
[
1,
1
]
]
]
]
]
]
],
[
[
"4",
"2"
],
"2",
[
[
false,
[
"T",
2,
[
[
false,
[
[
1,
[
0
]
],
[
-1,
[
1
]
]
]
]
]
]
],
[
false,
[
"L",
4,
[
[
true,
[
0,
1,
1
],
[
1,
1,
0
]
],
[
true,
[
0,
0,
0,
0
],
[]
]
]
]
]
]
],
[
[
"2"
],
null,
[
[
false,
[
"T",
2,
[
[
false,
[
[
1,
[
0
]
],
[
-1,
[]
]
]
]
]
]
]
]
]
]
],
[
[
99,
100,
101,
102,
103,
104,
105,
106,
107,
108,
109,
110
],
[
[
[
"4"
],
null,
[
[
true,
[
"L",
4,
[
[
true,
[
0,
0,
0,
0
],
[]
]
]
]
]
]
],
[
[
"M"
],
null,
[
[
false,
[
"L",
2,
[
[
true,
[
0,
0
],
[]
]
]
]
],
[
false,
[
"T",
2,
[
[
false,
[
[
1,
[
0
]
],
[
-1,
[]
]
]
]
]
]
]
]
],
[
[
"2",
"M"
],
"M",
[
[
false,
[
"T",
2,
[
[
false,
[
[
1,
[
0
]
],
[
-1,
[
1
]
]
]
]
]
]
],
[
true,
[
"L",
2,
[
[
true,
[
1,
1
],
[
0,
1,
0,
1
]
]
]
]
]
]
],
[
[
"2",
"M"
],
"M",
[
[
false,
[
"T",
2,
[
[
false,
[
[
1,
[
0
]
],
[
-1,
[]
]
]
],
[
true,
[
[
1,
[
1
]
],
[
-1,
[]
]
]
]
]
]
],
[
true,
[
"L",
2,
[
[
true,
[
0,
1,
0,
1
],
[]
]
]
]
]
]
]
]
],
[
[
111,
112,
113,
114,
115,
116,
117,
118,
119,
120,
121,
122
],
[
[
[
"2",
"2"
],
"2",
[
[
true,
[
"T",
2,
[
[
false,
[
[
1,
[
0
]
],
[
-1,
[]
]
]
],
[
true,
[
[
1,
[
1
]
],
[
-1,
[]
]
]
]
]
]
]
]
],
[
[
"2",
"M"
],
"M",
[
[
true,
[
"L",
2,
[
[
true,
[
0,
0
],
[
0,
1,
0,
1
]
]
]
]
]
]
],
[
[
"M",
"M"
],
"2",
[
[
false,
[
"T",
2,
[
[
false,
[
[
1,
[
0
]
],
[
-1,
[
1
]
]
]
]
]
]
],
[
true,
[
"L",
2,
[
[
true,
[
0,
0
],
[
1,
1
]
]
]
]
]
]
],
[
[
"2"
],
null,
[
[
false,
[
"L",
2,
[
[
true,
[
0,
0
],
[]
]
]
]
]
]
],
[
[
"2",
"M"
],
"M",
[
[
false,
[
"L",
2,
[
[
true,
[
0,
1,
0,
1
],
[]
]
]
]
],
[
true,
[
"L",
4,
[
[
true,
[
1,
1,
0,
1,
1
],
[
0
]
]
]
]
]
]
]
]
],
[
[
123,
124,
125,
126,
127,
128,
129,
130,
131,
132,
133,
134,
135,
136,
137,
138,
139,
140,
141,
142
],
[
[
[
"4"
],
null,
[
[
true,
[
"L",
4,
[
[
true,
[
0,
0,
0,
0
],
[]
]
]
]
]
]
],
[
[
"M"
],
null,
[
[
true,
[
"L",
2,
[
[
true,
[
0,
0
],
[]
]
]
]
],
[
false,
[
"T",
2,
[
[
false,
[
[
1,
[
0
]
],
[
-1,
[]
]
]
]
]
]
]
]
],
[
[
"M"
],
null,
[
[
true,
[
"L",
2,
[
[
true,
[
0,
0
],
[]
]
]
]
],
[
true,
[
"T",
2,
[
[
false,
[
[
1,
[
0
]
],
[
-1,
[]
]
]
]
]
]
]
]
],
[
[
"-4",
"M"
],
"2",
[
[
false,
[
"T",
2,
[
[
false,
[
[
1,
[
0
]
],
[
-1,
[
1
]
]
]
]
]
]
],
[
true,
[
"L",
2,
[
[
true,
[
0,
1,
0,
1
],
[]
]
]
]
]
]
],
[
[
"4",
"M"
],
"M",
[
[
false,
[
"L",
2,
[
[
true,
[
0,
1,
0,
1
],
[]
]
]
]
],
[
true,
[
"L",
2,
[
[
true,
[
0,
0,
0,
0
],
[
1,
1
]
]
]
]
]
]
]
]
],
[
[
143,
144,
145,
146
],
[
[
[
"3"
],
null,
[
[
true,
[
"L",
3,
[
[
true,
[
0,
0,
0
],
[]
]
]
]
]
]
],
[
[
"3"
],
null,
[
[
true,
[
"T",
3,
[
[
false,
[
[
1,
[
0,
0
]
],
[
1,
[
0
]
],
[
1,
[]
]
]
]
]
]
]
]
]
]
],
[
[
147,
148
],
[
[
[
"3"
],
null,
[
[
true,
[
"T",
3,
[
[
false,
[
[
1,
[
0,
0
]
],
[
1,
[
0
]
],
[
1,
[]
]
]
]
]
]
]
]
]
]
],
[
[
149,
150,
151,
152,
153,
154,
155
],
[
[
[
"3"
],
null,
[
[
true,
[
"L",
3,
[
[
true,
[
0,
0,
0
],
[]
]
]
]
]
]
],
[
[
"2",
"2"
],
"3",
[
[
true,
[
"T",
3,
[
[
false,
[
[
1,
[
0
]
],
[
-1,
[]
]
]
],
[
true,
[
[
1,
[
1
]
],
[
-1,
[]
]
]
]
]
]
]
]
],
[
[
"3"
],
null,
[
[
true,
[
"T",
3,
[
[
false,
[
[
1,
[
0,
0
]
],
[
1,
[
0
]
],
[
1,
[]
]
]
]
]
]
]
]
]
]
],
[
[
156,
157,
158,
159,
160,
161
],
[
[
[
"M"
],
null,
[
[
true,
[
"L",
2,
[
[
true,
[
0,
0
],
[]
]
]
]
]
]
],
[
[
"3",
"M"
],
"M",
[
[
true,
[
"T",
3,
[
[
false,
[
[
1,
[
0
]
],
[
-1,
[]
]
]
],
[
true,
[
[
1,
[
1
]
],
[
-1,
[]
]
]
]
]
]
]
]
],
[
[
"3",
"M"
],
"M",
[
[
true,
[
"T",
3,
[
[
true,
[
[
1,
[
0
]
],
[
-1,
[]
]
]
],
[
false,
[
[
1,
[
1
]
],
[
-1,
[]
]
]
]
]
]
]
]
]
]
],
[
[
162,
163,
164,
165,
166,
167
],
[
[
[
"M"
],
null,
[
[
true,
[
"L",
2,
[
[
true,
[
0,
0
],
[]
]
]
]
]
]
],
[
[
"2",
"2"
],
"3",
[
[
true,
[
"T",
3,
[
[
false,
[
[
1,
[
0
]
],
[
-1,
[]
]
]
],
[
true,
[
[
1,
[
1
]
],
[
-1,
[]
]
]
]
]
]
]
]
],
[
[
"3",
"M"
],
"M",
[
[
true,
[
"T",
3,
[
[
false,
[
[
1,
[
0
]
],
[
-1,
[]
]
]
],
[
true,
[
[
1,
[
1
]
],
[
-1,
[]
]
]
]
]
]
]
]
]
]
],
[
[
168,
169,
170,
171,
172,
173
],
[
[
[
"2"
],
null,
[
[
true,
[
"L",
2,
[
[
true,
[
0,
0
],
[]
]
]
]
]
]
],
[
[
"3"
],
null,
[
[
true,
[
"L",
3,
[
[
true,
[
0,
0,
0
],
[]
]
]
]
]
]
]
]
],
[
[
174
],
[]
],
[
[
175,
176
],
[
[
[
"2"
],
null,
[
[
true,
[
"L",
2,
[
[
true,
[
0,
0
],
[]
]
]
]
]
]
]
]
],
[
[
177,
178,
179,
180,
181,
182
],
[
[
[
"2"
],
null,
[
[
false,
[
"L",
2,
[
[
true,
[
0,
0
],
[]
]
]
]
]
]
],
[
[
"3"
],
null,
[
[
true,
[
"L",
3,
[
[
true,
[
0,
0,
0
],
[]
]
]
]
]
]
]
]
],
[
[
183,
184,
185,
186
],
[
[
[
"2"
],
null,
[
[
true,
[
"L",
2,
[
[
true,
[
0,
0
],
[]
]
]
]
]
]
],
[
[
"3",
"M"
],
"M",
[
[
true,
[
"T",
3,
[
[
false,
[
[
1,
[
0
]
],
[
-1,
[]
]
]
],
[
true,
[
[
1,
[
1
]
],
[
-1,
[]
]
]
]
]
]
],
[
true,
[
"L",
2,
[
[
true,
[
0,
1,
0,
1
],
[]
]
]
]
]
]
]
]
],
[
[
187,
188,
189,
190
],
[
[
[
"M"
],
null,
[
[
false,
[
"L",
2,
[
[
true,
[
0,
0
],
[]
]
]
]
]
]
],
[
[
"-6",
"2"
],
"M",
[
[
true,
[
"T",
3,
[
[
false,
[
[
1,
[
0
]
],
[
-1,
[]
]
]
],
[
true,
[
[
1,
[
1
]
],
[
-1,
[]
]
]
]
]
]
]
]
]
]
],
[
[
191,
192,
193,
194
],
[
[
[
"2"
],
null,
[
[
false,
[
"L",
2,
[
[
true,
[
0,
0
],
[]
]
]
]
]
]
],
[
[
"-6",
"2"
],
"M",
[
[
true,
[
"T",
3,
[
[
false,
[
[
1,
[
0
]
],
[
-1,
[]
]
]
],
[
true,
[
[
1,
[
1
]
],
[
-1,
[]
]
]
]
]
]
],
[
true,
[
"L",
2,
[
[
true,
[
0,
1,
0,
1
],
[]
]
]
]
]
]
]
]
],
[
[
195,
196,
197,
198,
199
],
[
[
[
"2"
],
null,
[
[
true,
[
"T",
2,
[
[
false,
[
[
1,
[
0
]
],
[
-1,
[]
]
]
]
]
]
]
]
],
[
[
"2",
"2"
],
"2",
[
[
true,
[
"L",
2,
[
[
true,
[
0,
0
],
[
1,
1
]
],
[
true,
[
0,
1,
0,
1
],
[]
]
]
]
]
]
],
[
[
"2",
"2"
],
"2",
[
[
true,
[
"T",
2,
[
[
false,
[
[
1,
[
0
]
],
[
-1,
[]
]
]
],
[
true,
[
[
1,
[
1
]
],
[
-1,
[]
]
]
]
]
]
]
]
]
]
],
[
[
200,
201,
202,
203,
204,
205,
206
],
[
[
[
"2"
],
null,
[
[
true,
[
"T",
2,
[
[
false,
[
[
1,
[
0
]
],
[
-1,
[]
]
]
]
]
]
]
]
],
[
[
"M"
],
null,
[
[
true,
[
"L",
2,
[
[
true,
[
0,
0
],
[]
]
]
]
]
]
],
[
[
"-3",
"-3"
],
"2",
[
[
false,
[
"T",
2,
[
[
false,
[
[
1,
[
0
]
],
[
-1,
[]
]
]
],
[
true,
[
[
1,
[
1
]
],
[
-1,
[]
]
]
]
]
]
],
[
true,
[
"L",
2,
[
[
true,
[
0,
1,
0,
1
],
[]
]
]
]
]
]
]
]
],
[
[
207,
208,
209,
210,
211,
212,
213,
214
],
[
[
[
"2"
],
null,
[
[
false,
[
"T",
2,
[
[
false,
[
[
1,
[
0
]
],
[
-1,
[]
]
]
]
]
]
]
]
],
[
[
"4"
],
null,
[
[
true,
[
"L",
2,
[
[
true,
[
0,
0,
0,
0
],
[]
]
]
]
]
]
],
[
[
"2",
"3"
],
"3",
[
[
true,
[
"T",
2,
[
[
false,
[
[
1,
[
0
]
],
[
-1,
[]
]
]
],
[
true,
[
[
1,
[
1
]
],
[
-1,
[]
]
]
]
]
]
]
]
],
[
[
"4"
],
null,
[
[
true,
[
"L",
4,
[
[
true,
[
0,
0,
0,
0
],
[]
]
]
]
]
]
]
]
],
[
[
215,
216,
217,
218,
219,
220
],
[
[
[
"M"
],
null,
[
[
true,
[
"L",
2,
[
[
true,
[
0,
0
],
[]
]
]
]
]
]
],
[
[
"2"
],
null,
[
[
true,
[
"T",
2,
[
[
false,
[
[
1,
[
0
]
],
[
-1,
[]
]
]
]
]
]
]
]
],
[
[
"-4",
"-4"
],
"3",
[
[
true,
[
"T",
2,
[
[
false,
[
[
1,
[
0
]
],
[
-1,
[]
]
]
],
[
true,
[
[
1,
[
1
]
],
[
-1,
[]
]
]
]
]
]
]
]
]
]
],
[
[
221,
222,
223,
224,
225,
226,
227,
228,
229,
230
],
[
[
[
"4"
],
null,
[
[
true,
[
"L",
4,
[
[
true,
[
0,
0,
0,
0
],
[]
]
]
]
]
]
],
[
[
"2"
],
null,
[
[
false,
[
"T",
2,
[
[
false,
[
[
1,
[
0
]
],
[
-1,
[]
]
]
]
]
]
]
]
],
[
[
"-3",
"2"
],
"M",
[
[
true,
[
"L",
2,
[
[
true,
[
0,
1,
0,
1
],
[]
]
]
]
]
]
],
[
[
"-3",
"-3"
],
"2",
[
[
true,
[
"T",
2,
[
[
false,
[
[
1,
[
0
]
],
[
-1,
[]
]
]
],
[
true,
[
[
1,
[
1
]
],
[
-1,
[]
]
]
]
]
]
]
]
]
]
]
]