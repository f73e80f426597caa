import Verif.Width.Ops
/-! Written by tools/conformance_width.py: the expectations of tests/width_t.cpp, evaluated on the model (see DESIGN.md). -/
namespace Strf.Width

-- tests/width_t.cpp 21
example : (((literal [1] [1, 2, 5]).bind fun a => (literal [1, 0] [6, 2, 5]).bind fun b => BinOp.plus.run (.width a) (.width b)).bind fun a => (literal [1, 1] [7, 5]).bind fun b => CmpOp.eq.run (.width a) (.width b)) = some true := by decide +kernel
-- tests/width_t.cpp 22
example : (((literal [1, 0] [6, 2, 5]).bind fun a => (literal [1] [1, 2, 5]).bind fun b => BinOp.minus.run (.width a) (.width b)).bind fun a => (literal [9] [5]).bind fun b => CmpOp.eq.run (.width a) (.width b)) = some true := by decide +kernel
-- tests/width_t.cpp 23
example : ((((literal [1] [1, 2, 5]).bind neg).bind fun a => ((literal [1] [1, 2, 5]).bind neg).bind fun b => BinOp.plus.run (.width a) (.width b)).bind fun a => ((literal [2] [2, 5]).bind neg).bind fun b => CmpOp.eq.run (.width a) (.width b)) = some true := by decide +kernel
-- tests/width_t.cpp 25
example : (((literal [1] []).bind fun a => (literal [1] []).bind fun b => BinOp.over.run (.width a) (.width b)).bind fun a => CmpOp.eq.run (.width a) (.int (1))) = some true := by decide +kernel
-- tests/width_t.cpp 26
example : (((literal [1, 0] [5]).bind fun a => BinOp.over.run (.width a) (.int (2))).bind fun a => (literal [5] [2, 5]).bind fun b => CmpOp.eq.run (.width a) (.width b)) = some true := by decide +kernel
-- tests/width_t.cpp 27
example : (((literal [1, 0] [5]).bind fun a => ((literal [2] []).bind neg).bind fun b => BinOp.over.run (.width a) (.width b)).bind fun a => ((literal [5] [2, 5]).bind neg).bind fun b => CmpOp.eq.run (.width a) (.width b)) = some true := by decide +kernel
-- tests/width_t.cpp 28
example : (((literal [1, 0] [5]).bind fun a => BinOp.over.run (.width a) (.int (-2))).bind fun a => ((literal [5] [2, 5]).bind neg).bind fun b => CmpOp.eq.run (.width a) (.width b)) = some true := by decide +kernel
-- tests/width_t.cpp 30
example : (((literal [1, 0] []).bind fun a => (literal [2] [5]).bind fun b => BinOp.over.run (.width a) (.width b)).bind fun a => CmpOp.eq.run (.width a) (.int (4))) = some true := by decide +kernel
-- tests/width_t.cpp 31
example : (((literal [2] [5]).bind fun b => BinOp.over.run (.int (25)) (.width b)).bind fun a => CmpOp.eq.run (.width a) (.int (10))) = some true := by decide +kernel
-- tests/width_t.cpp 32
example : (((literal [1, 0] [5]).bind fun a => (literal [2] [5]).bind fun b => BinOp.over.run (.width a) (.width b)).bind fun a => (literal [4] [2]).bind fun b => CmpOp.eq.run (.width a) (.width b)) = some true := by decide +kernel
-- tests/width_t.cpp 33
example : (((literal [1, 0] [5]).bind fun a => (literal [2] []).bind fun b => BinOp.over.run (.width a) (.width b)).bind fun a => (literal [5] [2, 5]).bind fun b => CmpOp.eq.run (.width a) (.width b)) = some true := by decide +kernel
-- tests/width_t.cpp 34
example : (((literal [1, 0] [2, 5]).bind fun a => ((literal [0] [5]).bind neg).bind fun b => BinOp.over.run (.width a) (.width b)).bind fun a => ((literal [2, 0] [5]).bind neg).bind fun b => CmpOp.eq.run (.width a) (.width b)) = some true := by decide +kernel
-- tests/width_t.cpp 36
example : (((literal [5] [5]).bind fun a => BinOp.times.run (.width a) (.int (2))).bind fun a => CmpOp.eq.run (.width a) (.int (11))) = some true := by decide +kernel
-- tests/width_t.cpp 37
example : ((((literal [5] [5]).bind neg).bind fun a => BinOp.times.run (.width a) (.int (2))).bind fun a => CmpOp.eq.run (.width a) (.int (-11))) = some true := by decide +kernel
-- tests/width_t.cpp 39
example : (((literal [2] [5]).bind fun b => BinOp.times.run (.int (2)) (.width b)).bind fun a => CmpOp.eq.run (.width a) (.int (5))) = some true := by decide +kernel
-- tests/width_t.cpp 40
example : (((literal [1] [5]).bind fun a => (literal [5] [5]).bind fun b => BinOp.times.run (.width a) (.width b)).bind fun a => (literal [8] [2, 5]).bind fun b => CmpOp.eq.run (.width a) (.width b)) = some true := by decide +kernel
-- tests/width_t.cpp 41
example : ((((literal [1] [5]).bind neg).bind fun a => ((literal [5] [5]).bind neg).bind fun b => BinOp.times.run (.width a) (.width b)).bind fun a => (literal [8] [2, 5]).bind fun b => CmpOp.eq.run (.width a) (.width b)) = some true := by decide +kernel
-- tests/width_t.cpp 42
example : (((literal [1, 0] [5]).bind fun a => (literal [0] [5]).bind fun b => BinOp.times.run (.width a) (.width b)).bind fun a => (literal [5] [2, 5]).bind fun b => CmpOp.eq.run (.width a) (.width b)) = some true := by decide +kernel
-- tests/width_t.cpp 43
example : ((((literal [1, 0] [5]).bind neg).bind fun a => (literal [0] [5]).bind fun b => BinOp.times.run (.width a) (.width b)).bind fun a => ((literal [5] [2, 5]).bind neg).bind fun b => CmpOp.eq.run (.width a) (.width b)) = some true := by decide +kernel
-- tests/width_t.cpp 44
example : (((literal [1, 0] [5]).bind fun a => ((literal [0] [5]).bind neg).bind fun b => BinOp.times.run (.width a) (.width b)).bind fun a => ((literal [5] [2, 5]).bind neg).bind fun b => CmpOp.eq.run (.width a) (.width b)) = some true := by decide +kernel
-- tests/width_t.cpp 45
example : ((((literal [1, 0] [5]).bind neg).bind fun a => ((literal [0] [5]).bind neg).bind fun b => BinOp.times.run (.width a) (.width b)).bind fun a => (literal [5] [2, 5]).bind fun b => CmpOp.eq.run (.width a) (.width b)) = some true := by decide +kernel
-- tests/width_t.cpp 64
example : ((literal [0] []).map fun a => CmpOp.eq.members a 0) = some true := by decide +kernel
-- tests/width_t.cpp 65
example : ((literal [0] []).map fun a => CmpOp.ge.members a 0) = some true := by decide +kernel
-- tests/width_t.cpp 66
example : ((literal [0] []).map fun a => CmpOp.le.members a 0) = some true := by decide +kernel
-- tests/width_t.cpp 67
example : ((literal [0] []).map fun a => CmpOp.ne.members a 0) = some false := by decide +kernel
-- tests/width_t.cpp 68
example : ((literal [1] []).map fun a => CmpOp.gt.members a 0) = some true := by decide +kernel
-- tests/width_t.cpp 69
example : ((literal [1] []).map fun a => CmpOp.ge.members a 0) = some true := by decide +kernel
-- tests/width_t.cpp 70
example : (((literal [1] []).bind neg).map fun a => CmpOp.lt.members a 0) = some true := by decide +kernel
-- tests/width_t.cpp 71
example : (((literal [1] []).bind neg).map fun a => CmpOp.le.members a 0) = some true := by decide +kernel
-- tests/width_t.cpp 73
example : ((literal [1] [7, 2, 5]).map floor) = some (1) := by decide +kernel
-- tests/width_t.cpp 74
example : (((literal [1] [7, 2, 5]).bind neg).map floor) = some (-2) := by decide +kernel
-- tests/width_t.cpp 75
example : ((some wmax).map floor) = some (32767) := by decide +kernel
-- tests/width_t.cpp 76
example : ((some wmin).map floor) = some (-32768) := by decide +kernel
-- tests/width_t.cpp 78
example : ((literal [1] [7, 2, 5]).map nnFloor) = some (1) := by decide +kernel
-- tests/width_t.cpp 79
example : (((literal [1] [7, 2, 5]).bind neg).map nnFloor) = some (0) := by decide +kernel
-- tests/width_t.cpp 80
example : ((some wmax).map nnFloor) = some (32767) := by decide +kernel
-- tests/width_t.cpp 81
example : ((some wmin).map nnFloor) = some (0) := by decide +kernel
-- tests/width_t.cpp 83
example : ((literal [1] [7, 2, 5]).map ceil) = some (2) := by decide +kernel
-- tests/width_t.cpp 84
example : (((literal [1] [7, 2, 5]).bind neg).map ceil) = some (-1) := by decide +kernel
-- tests/width_t.cpp 85
example : (((literal [0] [7, 2, 5]).bind neg).map ceil) = some (0) := by decide +kernel
-- tests/width_t.cpp 86
example : ((some wmax).map ceil) = some (32768) := by decide +kernel
-- tests/width_t.cpp 87
example : ((some wmin).map ceil) = some (-32768) := by decide +kernel
-- tests/width_t.cpp 89
example : ((literal [1] [7, 2, 5]).map nnCeil) = some (2) := by decide +kernel
-- tests/width_t.cpp 90
example : (((literal [1] [7, 2, 5]).bind neg).map nnCeil) = some (0) := by decide +kernel
-- tests/width_t.cpp 91
example : (((literal [0] [7, 2, 5]).bind neg).map nnCeil) = some (0) := by decide +kernel
-- tests/width_t.cpp 92
example : ((some wmax).map nnCeil) = some (32768) := by decide +kernel
-- tests/width_t.cpp 93
example : ((some wmin).map nnCeil) = some (0) := by decide +kernel
-- tests/width_t.cpp 95
example : ((literal [0] []).map round) = some (0) := by decide +kernel
-- tests/width_t.cpp 96
example : ((literal [0] [0, 0, 1]).map round) = some (0) := by decide +kernel
-- tests/width_t.cpp 97
example : ((literal [0] [5]).map round) = some (0) := by decide +kernel
-- tests/width_t.cpp 98
example : ((literal [1] [5]).map round) = some (1) := by decide +kernel
-- tests/width_t.cpp 99
example : ((literal [1] [5, 0, 0, 0, 1]).map round) = some (2) := by decide +kernel
-- tests/width_t.cpp 100
example : ((literal [2] [5]).map round) = some (2) := by decide +kernel
-- tests/width_t.cpp 101
example : ((literal [2] [5, 0, 0, 0, 1]).map round) = some (3) := by decide +kernel
-- tests/width_t.cpp 103
example : (((literal [1] [5]).bind neg).map round) = some (-1) := by decide +kernel
-- tests/width_t.cpp 104
example : (((literal [1] [5, 0, 0, 0, 1]).bind neg).map round) = some (-2) := by decide +kernel
-- tests/width_t.cpp 105
example : (((literal [2] [5]).bind neg).map round) = some (-2) := by decide +kernel
-- tests/width_t.cpp 106
example : (((literal [2] [5, 0, 0, 0, 1]).bind neg).map round) = some (-3) := by decide +kernel
-- tests/width_t.cpp 108
example : ((literal [1, 0, 0] []).map round) = some (100) := by decide +kernel
-- tests/width_t.cpp 109
example : (((literal [1, 0, 0] []).bind neg).map round) = some (-100) := by decide +kernel
-- tests/width_t.cpp 110
example : ((some wmax).map round) = some (32768) := by decide +kernel
-- tests/width_t.cpp 111
example : ((some wmin).map round) = some (-32768) := by decide +kernel
-- tests/width_t.cpp 114
example : (((literal [1] []).bind fun a => (literal [1] []).bind fun b => satAdd a b).bind fun a => (literal [2] []).bind fun b => CmpOp.eq.run (.width a) (.width b)) = some true := by decide +kernel
-- tests/width_t.cpp 115
example : (((literal [1] []).bind fun a => ((literal [1] []).bind neg).bind fun b => satAdd a b).bind fun a => (literal [0] []).bind fun b => CmpOp.eq.run (.width a) (.width b)) = some true := by decide +kernel
-- tests/width_t.cpp 116
example : (((literal [1] [2, 5]).bind fun a => (literal [1] [2, 5]).bind fun b => satAdd a b).bind fun a => (literal [2] [5]).bind fun b => CmpOp.eq.run (.width a) (.width b)) = some true := by decide +kernel
-- tests/width_t.cpp 117
example : (((literal [2] [7, 5]).bind fun a => ((literal [1] [2, 5]).bind neg).bind fun b => satAdd a b).bind fun a => (literal [1] [5]).bind fun b => CmpOp.eq.run (.width a) (.width b)) = some true := by decide +kernel
-- tests/width_t.cpp 118
example : (((literal [3, 2, 0, 0, 0] []).bind fun a => (literal [3, 2, 0, 0, 0] []).bind fun b => satAdd a b).bind fun a => (some wmax).bind fun b => CmpOp.eq.run (.width a) (.width b)) = some true := by decide +kernel
-- tests/width_t.cpp 119
example : ((((literal [3, 2, 0, 0, 0] []).bind neg).bind fun a => ((literal [3, 2, 0, 0, 0] []).bind neg).bind fun b => satAdd a b).bind fun a => (some wmin).bind fun b => CmpOp.eq.run (.width a) (.width b)) = some true := by decide +kernel
-- tests/width_t.cpp 120
example : (((some wmax).bind fun a => ((some wmax).bind neg).bind fun b => satAdd a b).bind fun a => (literal [0] []).bind fun b => CmpOp.eq.run (.width a) (.width b)) = some true := by decide +kernel
-- tests/width_t.cpp 124
example : (((literal [1] []).bind fun a => (literal [1] []).bind fun b => satSub a b).bind fun a => (literal [0] []).bind fun b => CmpOp.eq.run (.width a) (.width b)) = some true := by decide +kernel
-- tests/width_t.cpp 125
example : (((literal [2] [7, 5]).bind fun a => (literal [1] [2, 5]).bind fun b => satSub a b).bind fun a => (literal [1] [5]).bind fun b => CmpOp.eq.run (.width a) (.width b)) = some true := by decide +kernel
-- tests/width_t.cpp 126
example : (((literal [3, 2, 0, 0, 0] []).bind fun a => ((literal [3, 2, 0, 0, 0] []).bind neg).bind fun b => satSub a b).bind fun a => (some wmax).bind fun b => CmpOp.eq.run (.width a) (.width b)) = some true := by decide +kernel
-- tests/width_t.cpp 127
example : ((((literal [3, 2, 0, 0, 0] []).bind neg).bind fun a => (literal [3, 2, 0, 0, 0] []).bind fun b => satSub a b).bind fun a => (some wmin).bind fun b => CmpOp.eq.run (.width a) (.width b)) = some true := by decide +kernel
-- tests/width_t.cpp 128
example : (((some wmax).bind fun a => (some wmax).bind fun b => satSub a b).bind fun a => (literal [0] []).bind fun b => CmpOp.eq.run (.width a) (.width b)) = some true := by decide +kernel
-- tests/width_t.cpp 131
example : (((literal [2] [5]).bind fun a => (satAddFn a (2) .i16).bind id).bind fun a => (literal [4] [5]).bind fun b => CmpOp.eq.run (.width a) (.width b)) = some true := by decide +kernel
-- tests/width_t.cpp 134
example : (((literal [1] []).bind fun a => (satAddFn a (1) .i32).bind id).bind fun a => (literal [2] []).bind fun b => CmpOp.eq.run (.width a) (.width b)) = some true := by decide +kernel
-- tests/width_t.cpp 135
example : (((literal [2] [5]).bind fun a => (satAddFn a (-1) .i32).bind id).bind fun a => (literal [1] [5]).bind fun b => CmpOp.eq.run (.width a) (.width b)) = some true := by decide +kernel
-- tests/width_t.cpp 136
example : (((some wmax).bind fun a => (satAddFn a (-1) .i32).bind id).bind fun a => ((some wmax).bind fun a => (literal [1] []).bind fun b => BinOp.minus.run (.width a) (.width b)).bind fun b => CmpOp.eq.run (.width a) (.width b)) = some true := by decide +kernel
-- tests/width_t.cpp 137
example : (((some wmax).bind fun a => (satAddFn a (1) .i32).bind id).bind fun a => (some wmax).bind fun b => CmpOp.eq.run (.width a) (.width b)) = some true := by decide +kernel
-- tests/width_t.cpp 138
example : (((some wmin).bind fun a => (satAddFn a (-1) .i32).bind id).bind fun a => (some wmin).bind fun b => CmpOp.eq.run (.width a) (.width b)) = some true := by decide +kernel
-- tests/width_t.cpp 139
example : (((literal [0] []).bind fun a => (satAddFn a (32768) .i32).bind id).bind fun a => (some wmax).bind fun b => CmpOp.eq.run (.width a) (.width b)) = some true := by decide +kernel
-- tests/width_t.cpp 140
example : (((literal [0] []).bind fun a => (satAddFn a (-65536) .i32).bind id).bind fun a => (some wmin).bind fun b => CmpOp.eq.run (.width a) (.width b)) = some true := by decide +kernel
-- tests/width_t.cpp 141
example : (((some wmax).bind fun a => (satAddFn a (-65535) .i32).bind id).map id) = some (-2147418113) := by decide +kernel
-- tests/width_t.cpp 142
example : (((some wmax).bind fun a => (satAddFn a (-65536) .i32).bind id).bind fun a => (some wmin).bind fun b => CmpOp.eq.run (.width a) (.width b)) = some true := by decide +kernel
-- tests/width_t.cpp 143
example : (((some wmin).bind fun a => (satAddFn a (65535) .i32).bind id).bind fun a => CmpOp.eq.run (.width a) (.int (32767))) = some true := by decide +kernel
-- tests/width_t.cpp 144
example : (((some wmin).bind fun a => (satAddFn a (65536) .i32).bind id).bind fun a => (some wmax).bind fun b => CmpOp.eq.run (.width a) (.width b)) = some true := by decide +kernel
-- tests/width_t.cpp 147
example : (((literal [1] []).bind fun a => (satSubFn a (-1) .i32).bind id).bind fun a => (literal [2] []).bind fun b => CmpOp.eq.run (.width a) (.width b)) = some true := by decide +kernel
-- tests/width_t.cpp 148
example : (((literal [2] [5]).bind fun a => (satSubFn a (1) .i32).bind id).bind fun a => (literal [1] [5]).bind fun b => CmpOp.eq.run (.width a) (.width b)) = some true := by decide +kernel
-- tests/width_t.cpp 149
example : (((some wmax).bind fun a => (satSubFn a (1) .i32).bind id).bind fun a => ((some wmax).bind fun a => (literal [1] []).bind fun b => BinOp.minus.run (.width a) (.width b)).bind fun b => CmpOp.eq.run (.width a) (.width b)) = some true := by decide +kernel
-- tests/width_t.cpp 150
example : (((some wmax).bind fun a => (satSubFn a (-1) .i32).bind id).bind fun a => (some wmax).bind fun b => CmpOp.eq.run (.width a) (.width b)) = some true := by decide +kernel
-- tests/width_t.cpp 151
example : (((some wmin).bind fun a => (satSubFn a (1) .i32).bind id).bind fun a => (some wmin).bind fun b => CmpOp.eq.run (.width a) (.width b)) = some true := by decide +kernel
-- tests/width_t.cpp 152
example : (((literal [0] []).bind fun a => (satSubFn a (-32768) .i32).bind id).bind fun a => (some wmax).bind fun b => CmpOp.eq.run (.width a) (.width b)) = some true := by decide +kernel
-- tests/width_t.cpp 153
example : (((literal [0] []).bind fun a => (satSubFn a (65536) .i32).bind id).bind fun a => (some wmin).bind fun b => CmpOp.eq.run (.width a) (.width b)) = some true := by decide +kernel
-- tests/width_t.cpp 154
example : (((some wmax).bind fun a => (satSubFn a (65535) .i32).bind id).map id) = some (-2147418113) := by decide +kernel
-- tests/width_t.cpp 155
example : (((some wmax).bind fun a => (satSubFn a (65536) .i32).bind id).bind fun a => (some wmin).bind fun b => CmpOp.eq.run (.width a) (.width b)) = some true := by decide +kernel
-- tests/width_t.cpp 156
example : (((some wmin).bind fun a => (satSubFn a (-65535) .i32).bind id).bind fun a => CmpOp.eq.run (.width a) (.int (32767))) = some true := by decide +kernel
-- tests/width_t.cpp 157
example : (((some wmin).bind fun a => (satSubFn a (-65536) .i32).bind id).bind fun a => (some wmax).bind fun b => CmpOp.eq.run (.width a) (.width b)) = some true := by decide +kernel
-- tests/width_t.cpp 160
example : (((literal [1] []).bind fun a => (satAddFn a (1) .i64).bind id).bind fun a => (literal [2] []).bind fun b => CmpOp.eq.run (.width a) (.width b)) = some true := by decide +kernel
-- tests/width_t.cpp 161
example : (((literal [2] [5]).bind fun a => (satAddFn a (-1) .i64).bind id).bind fun a => (literal [1] [5]).bind fun b => CmpOp.eq.run (.width a) (.width b)) = some true := by decide +kernel
-- tests/width_t.cpp 162
example : (((some wmax).bind fun a => (satAddFn a (-1) .i64).bind id).bind fun a => ((some wmax).bind fun a => (literal [1] []).bind fun b => BinOp.minus.run (.width a) (.width b)).bind fun b => CmpOp.eq.run (.width a) (.width b)) = some true := by decide +kernel
-- tests/width_t.cpp 163
example : (((some wmax).bind fun a => (satAddFn a (1) .i64).bind id).bind fun a => (some wmax).bind fun b => CmpOp.eq.run (.width a) (.width b)) = some true := by decide +kernel
-- tests/width_t.cpp 164
example : (((some wmin).bind fun a => (satAddFn a (-1) .i64).bind id).bind fun a => (some wmin).bind fun b => CmpOp.eq.run (.width a) (.width b)) = some true := by decide +kernel
-- tests/width_t.cpp 165
example : (((some wmin).bind fun a => (satAddFn a (32768) .i64).bind id).bind fun a => CmpOp.eq.run (.width a) (.int (0))) = some true := by decide +kernel
-- tests/width_t.cpp 166
example : (((some wmin).bind fun a => (satAddFn a (65535) .i64).bind id).bind fun a => CmpOp.eq.run (.width a) (.int (32767))) = some true := by decide +kernel
-- tests/width_t.cpp 167
example : (((some wmin).bind fun a => (satAddFn a (65536) .i64).bind id).bind fun a => (some wmax).bind fun b => CmpOp.eq.run (.width a) (.width b)) = some true := by decide +kernel
-- tests/width_t.cpp 168
example : (((some wmax).bind fun a => (satAddFn a (-65536) .i64).bind id).bind fun a => (some wmin).bind fun b => CmpOp.eq.run (.width a) (.width b)) = some true := by decide +kernel
-- tests/width_t.cpp 169
example : (((some wmax).bind fun a => (satAddFn a (-65537) .i64).bind id).bind fun a => (some wmin).bind fun b => CmpOp.eq.run (.width a) (.width b)) = some true := by decide +kernel
-- tests/width_t.cpp 170
example : (((some wmax).bind fun a => (satAddFn a (-65535) .i64).bind id).map id) = some (-2147418113) := by decide +kernel
-- tests/width_t.cpp 171
example : (((literal [0] []).bind fun a => (satAddFn a (32767) .i64).bind id).bind fun a => (some wmax).bind fun b => CmpOp.lt.run (.width a) (.width b)) = some true := by decide +kernel
-- tests/width_t.cpp 172
example : (((literal [0] []).bind fun a => (satAddFn a (32768) .i64).bind id).bind fun a => (some wmax).bind fun b => CmpOp.eq.run (.width a) (.width b)) = some true := by decide +kernel
-- tests/width_t.cpp 173
example : (((literal [0] []).bind fun a => (satAddFn a (-32768) .i64).bind id).bind fun a => (some wmin).bind fun b => CmpOp.eq.run (.width a) (.width b)) = some true := by decide +kernel
-- tests/width_t.cpp 174
example : (((literal [0] []).bind fun a => (satAddFn a (-32769) .i64).bind id).bind fun a => (some wmin).bind fun b => CmpOp.eq.run (.width a) (.width b)) = some true := by decide +kernel
-- tests/width_t.cpp 177
example : (((literal [1] []).bind fun a => (satSubFn a (-1) .i64).bind id).bind fun a => (literal [2] []).bind fun b => CmpOp.eq.run (.width a) (.width b)) = some true := by decide +kernel
-- tests/width_t.cpp 178
example : (((literal [2] [5]).bind fun a => (satSubFn a (1) .i64).bind id).bind fun a => (literal [1] [5]).bind fun b => CmpOp.eq.run (.width a) (.width b)) = some true := by decide +kernel
-- tests/width_t.cpp 179
example : (((some wmax).bind fun a => (satSubFn a (1) .i64).bind id).bind fun a => ((some wmax).bind fun a => (literal [1] []).bind fun b => BinOp.minus.run (.width a) (.width b)).bind fun b => CmpOp.eq.run (.width a) (.width b)) = some true := by decide +kernel
-- tests/width_t.cpp 180
example : (((some wmax).bind fun a => (satSubFn a (-1) .i64).bind id).bind fun a => (some wmax).bind fun b => CmpOp.eq.run (.width a) (.width b)) = some true := by decide +kernel
-- tests/width_t.cpp 181
example : (((some wmin).bind fun a => (satSubFn a (1) .i64).bind id).bind fun a => (some wmin).bind fun b => CmpOp.eq.run (.width a) (.width b)) = some true := by decide +kernel
-- tests/width_t.cpp 182
example : (((some wmin).bind fun a => (satSubFn a (-32768) .i64).bind id).bind fun a => CmpOp.eq.run (.width a) (.int (0))) = some true := by decide +kernel
-- tests/width_t.cpp 183
example : (((some wmin).bind fun a => (satSubFn a (-65535) .i64).bind id).bind fun a => CmpOp.eq.run (.width a) (.int (32767))) = some true := by decide +kernel
-- tests/width_t.cpp 184
example : (((some wmin).bind fun a => (satSubFn a (-65536) .i64).bind id).bind fun a => (some wmax).bind fun b => CmpOp.eq.run (.width a) (.width b)) = some true := by decide +kernel
-- tests/width_t.cpp 185
example : (((some wmax).bind fun a => (satSubFn a (65536) .i64).bind id).bind fun a => (some wmin).bind fun b => CmpOp.eq.run (.width a) (.width b)) = some true := by decide +kernel
-- tests/width_t.cpp 186
example : (((some wmax).bind fun a => (satSubFn a (65537) .i64).bind id).bind fun a => (some wmin).bind fun b => CmpOp.eq.run (.width a) (.width b)) = some true := by decide +kernel
-- tests/width_t.cpp 187
example : (((some wmax).bind fun a => (satSubFn a (65535) .i64).bind id).map id) = some (-2147418113) := by decide +kernel
-- tests/width_t.cpp 188
example : (((literal [0] []).bind fun a => (satSubFn a (-32767) .i64).bind id).bind fun a => (some wmax).bind fun b => CmpOp.lt.run (.width a) (.width b)) = some true := by decide +kernel
-- tests/width_t.cpp 189
example : (((literal [0] []).bind fun a => (satSubFn a (-32768) .i64).bind id).bind fun a => (some wmax).bind fun b => CmpOp.eq.run (.width a) (.width b)) = some true := by decide +kernel
-- tests/width_t.cpp 190
example : (((literal [0] []).bind fun a => (satSubFn a (32768) .i64).bind id).bind fun a => (some wmin).bind fun b => CmpOp.eq.run (.width a) (.width b)) = some true := by decide +kernel
-- tests/width_t.cpp 191
example : (((literal [0] []).bind fun a => (satSubFn a (32769) .i64).bind id).bind fun a => (some wmin).bind fun b => CmpOp.eq.run (.width a) (.width b)) = some true := by decide +kernel
-- tests/width_t.cpp 194
example : (((literal [1] [5]).bind fun a => (literal [1] [5]).bind fun b => satMul a b).bind fun a => (literal [2] [2, 5]).bind fun b => CmpOp.eq.run (.width a) (.width b)) = some true := by decide +kernel
-- tests/width_t.cpp 195
example : (((literal [1] []).bind fun a => ((some wmax).bind fun a => (some 1).bind fun b => BinOp.minus.run (.width a) (.width b)).bind fun b => satMul a b).bind fun a => ((some wmax).bind fun a => (some 1).bind fun b => BinOp.minus.run (.width a) (.width b)).bind fun b => CmpOp.eq.run (.width a) (.width b)) = some true := by decide +kernel
-- tests/width_t.cpp 196
example : (((literal [1] []).bind fun a => (some wmax).bind fun b => satMul a b).bind fun a => (some wmax).bind fun b => CmpOp.eq.run (.width a) (.width b)) = some true := by decide +kernel
-- tests/width_t.cpp 197
example : ((((literal [1] []).bind fun a => (some 1).bind fun b => BinOp.plus.run (.width a) (.width b)).bind fun a => (some wmax).bind fun b => satMul a b).bind fun a => (some wmax).bind fun b => CmpOp.eq.run (.width a) (.width b)) = some true := by decide +kernel
-- tests/width_t.cpp 198
example : (((literal [1] []).bind fun a => ((some 1).bind neg).bind fun b => satMul a b).bind fun a => ((some 1).bind neg).bind fun b => CmpOp.eq.run (.width a) (.width b)) = some true := by decide +kernel
-- tests/width_t.cpp 199
example : (((literal [0] [2, 5]).bind fun a => ((some 1).bind neg).bind fun b => satMul a b).bind fun a => (literal [0] []).bind fun b => CmpOp.eq.run (.width a) (.width b)) = some true := by decide +kernel
-- tests/width_t.cpp 200
example : (((some 1).bind fun a => ((some 1).bind neg).bind fun b => satMul a b).bind fun a => (literal [0] []).bind fun b => CmpOp.eq.run (.width a) (.width b)) = some true := by decide +kernel
-- tests/width_t.cpp 201
example : (((literal [1] []).bind fun a => ((some wmin).bind fun a => (some 1).bind fun b => BinOp.plus.run (.width a) (.width b)).bind fun b => satMul a b).bind fun a => ((some wmin).bind fun a => (some 1).bind fun b => BinOp.plus.run (.width a) (.width b)).bind fun b => CmpOp.eq.run (.width a) (.width b)) = some true := by decide +kernel
-- tests/width_t.cpp 202
example : (((literal [1] []).bind fun a => (some wmin).bind fun b => satMul a b).bind fun a => (some wmin).bind fun b => CmpOp.eq.run (.width a) (.width b)) = some true := by decide +kernel
-- tests/width_t.cpp 203
example : ((((literal [1] []).bind fun a => (some 1).bind fun b => BinOp.plus.run (.width a) (.width b)).bind fun a => (some wmin).bind fun b => satMul a b).bind fun a => (some wmin).bind fun b => CmpOp.eq.run (.width a) (.width b)) = some true := by decide +kernel
-- tests/width_t.cpp 206
example : (((literal [1] [5]).bind fun a => (satMulFn a (2) .i16).bind id).bind fun a => (literal [3] []).bind fun b => CmpOp.eq.run (.width a) (.width b)) = some true := by decide +kernel
-- tests/width_t.cpp 209
example : (((literal [0] []).bind fun a => (satMulFn a (400000) .i32).bind id).bind fun a => (literal [0] []).bind fun b => CmpOp.eq.run (.width a) (.width b)) = some true := by decide +kernel
-- tests/width_t.cpp 210
example : (((some wmax).bind fun a => (satMulFn a (0) .i32).bind id).bind fun a => (literal [0] []).bind fun b => CmpOp.eq.run (.width a) (.width b)) = some true := by decide +kernel
-- tests/width_t.cpp 211
example : (((literal [1, 0, 0] [1, 2, 5]).bind fun a => (satMulFn a (2) .i32).bind id).bind fun a => (literal [2, 0, 0] [2, 5]).bind fun b => CmpOp.eq.run (.width a) (.width b)) = some true := by decide +kernel
-- tests/width_t.cpp 212
example : (((literal [1, 0, 0] [1, 2, 5]).bind fun a => (satMulFn a (-2) .i32).bind id).bind fun a => ((literal [2, 0, 0] [2, 5]).bind neg).bind fun b => CmpOp.eq.run (.width a) (.width b)) = some true := by decide +kernel
-- tests/width_t.cpp 213
example : (((literal [1, 8, 0, 0, 0] []).bind fun a => (satMulFn a (2) .i32).bind id).bind fun a => (some wmax).bind fun b => CmpOp.eq.run (.width a) (.width b)) = some true := by decide +kernel
-- tests/width_t.cpp 214
example : (((literal [1, 8, 0, 0, 0] []).bind fun a => (satMulFn a (-2) .i32).bind id).bind fun a => (some wmin).bind fun b => CmpOp.eq.run (.width a) (.width b)) = some true := by decide +kernel
-- tests/width_t.cpp 215
example : ((((literal [1, 8, 0, 0, 0] []).bind neg).bind fun a => (satMulFn a (2) .i32).bind id).bind fun a => (some wmin).bind fun b => CmpOp.eq.run (.width a) (.width b)) = some true := by decide +kernel
-- tests/width_t.cpp 216
example : ((((literal [1, 8, 0, 0, 0] []).bind neg).bind fun a => (satMulFn a (-2) .i32).bind id).bind fun a => (some wmax).bind fun b => CmpOp.eq.run (.width a) (.width b)) = some true := by decide +kernel
-- tests/width_t.cpp 217
example : (((literal [1] []).bind fun a => (satMulFn a (40000) .i32).bind id).bind fun a => (some wmax).bind fun b => CmpOp.eq.run (.width a) (.width b)) = some true := by decide +kernel
-- tests/width_t.cpp 218
example : (((literal [1] []).bind fun a => (satMulFn a (-40000) .i32).bind id).bind fun a => (some wmin).bind fun b => CmpOp.eq.run (.width a) (.width b)) = some true := by decide +kernel
-- tests/width_t.cpp 219
example : ((((literal [1] []).bind neg).bind fun a => (satMulFn a (40000) .i32).bind id).bind fun a => (some wmin).bind fun b => CmpOp.eq.run (.width a) (.width b)) = some true := by decide +kernel
-- tests/width_t.cpp 220
example : ((((literal [1] []).bind neg).bind fun a => (satMulFn a (-40000) .i32).bind id).bind fun a => (some wmax).bind fun b => CmpOp.eq.run (.width a) (.width b)) = some true := by decide +kernel
-- tests/width_t.cpp 223
example : (((literal [0] []).bind fun a => (satMulFn a (400000) .u32).bind id).bind fun a => (literal [0] []).bind fun b => CmpOp.eq.run (.width a) (.width b)) = some true := by decide +kernel
-- tests/width_t.cpp 224
example : (((some wmax).bind fun a => (satMulFn a (0) .u32).bind id).bind fun a => (literal [0] []).bind fun b => CmpOp.eq.run (.width a) (.width b)) = some true := by decide +kernel
-- tests/width_t.cpp 225
example : (((literal [1, 0, 0] [1, 2, 5]).bind fun a => (satMulFn a (2) .u32).bind id).bind fun a => (literal [2, 0, 0] [2, 5]).bind fun b => CmpOp.eq.run (.width a) (.width b)) = some true := by decide +kernel
-- tests/width_t.cpp 226
example : (((literal [1, 8, 0, 0, 0] []).bind fun a => (satMulFn a (2) .u32).bind id).bind fun a => (some wmax).bind fun b => CmpOp.eq.run (.width a) (.width b)) = some true := by decide +kernel
-- tests/width_t.cpp 227
example : ((((literal [1, 8, 0, 0, 0] []).bind neg).bind fun a => (satMulFn a (2) .u32).bind id).bind fun a => (some wmin).bind fun b => CmpOp.eq.run (.width a) (.width b)) = some true := by decide +kernel
-- tests/width_t.cpp 228
example : (((literal [1] []).bind fun a => (satMulFn a (40000) .u32).bind id).bind fun a => (some wmax).bind fun b => CmpOp.eq.run (.width a) (.width b)) = some true := by decide +kernel
-- tests/width_t.cpp 229
example : ((((literal [1] []).bind neg).bind fun a => (satMulFn a (40000) .u32).bind id).bind fun a => (some wmin).bind fun b => CmpOp.eq.run (.width a) (.width b)) = some true := by decide +kernel
-- tests/width_t.cpp 232
example : (((literal [0] []).bind fun a => (satMulFn a (10) .i64).bind id).bind fun a => (literal [0] []).bind fun b => CmpOp.eq.run (.width a) (.width b)) = some true := by decide +kernel
-- tests/width_t.cpp 233
example : ((((literal [2] [5]).bind neg).bind fun a => (satMulFn a (10) .i64).bind id).bind fun a => ((literal [2, 5] []).bind neg).bind fun b => CmpOp.eq.run (.width a) (.width b)) = some true := by decide +kernel
-- tests/width_t.cpp 234
example : (((literal [2, 0, 0, 0, 0] []).bind fun a => (satMulFn a (20000) .i64).bind id).bind fun a => (some wmax).bind fun b => CmpOp.eq.run (.width a) (.width b)) = some true := by decide +kernel
-- tests/width_t.cpp 235
example : ((((literal [2, 0, 0, 0, 0] []).bind neg).bind fun a => (satMulFn a (20000) .i64).bind id).bind fun a => (some wmin).bind fun b => CmpOp.eq.run (.width a) (.width b)) = some true := by decide +kernel
-- tests/width_t.cpp 237
example : (((some 1).bind fun a => (satMulFn a (2147483646) .i64).bind id).bind fun a => (some wmax).bind fun b => CmpOp.lt.run (.width a) (.width b)) = some true := by decide +kernel
-- tests/width_t.cpp 238
example : (((some 1).bind fun a => (satMulFn a (2147483647) .i64).bind id).bind fun a => (some wmax).bind fun b => CmpOp.eq.run (.width a) (.width b)) = some true := by decide +kernel
-- tests/width_t.cpp 239
example : (((some 1).bind fun a => (satMulFn a (2147483648) .i64).bind id).bind fun a => (some wmax).bind fun b => CmpOp.eq.run (.width a) (.width b)) = some true := by decide +kernel
-- tests/width_t.cpp 240
example : ((((some 1).bind neg).bind fun a => (satMulFn a (-2147483646) .i64).bind id).bind fun a => (some wmax).bind fun b => CmpOp.lt.run (.width a) (.width b)) = some true := by decide +kernel
-- tests/width_t.cpp 241
example : ((((some 1).bind neg).bind fun a => (satMulFn a (-2147483647) .i64).bind id).bind fun a => (some wmax).bind fun b => CmpOp.eq.run (.width a) (.width b)) = some true := by decide +kernel
-- tests/width_t.cpp 242
example : ((((some 1).bind neg).bind fun a => (satMulFn a (-2147483648) .i64).bind id).bind fun a => (some wmax).bind fun b => CmpOp.eq.run (.width a) (.width b)) = some true := by decide +kernel
-- tests/width_t.cpp 244
example : (((some 1).bind fun a => (satMulFn a (-2147483647) .i64).bind id).bind fun a => (some wmin).bind fun b => CmpOp.gt.run (.width a) (.width b)) = some true := by decide +kernel
-- tests/width_t.cpp 245
example : (((some 1).bind fun a => (satMulFn a (-2147483648) .i64).bind id).bind fun a => (some wmin).bind fun b => CmpOp.eq.run (.width a) (.width b)) = some true := by decide +kernel
-- tests/width_t.cpp 246
example : (((some 1).bind fun a => (satMulFn a (-2147483649) .i64).bind id).bind fun a => (some wmin).bind fun b => CmpOp.eq.run (.width a) (.width b)) = some true := by decide +kernel
-- tests/width_t.cpp 247
example : ((((some 1).bind neg).bind fun a => (satMulFn a (2147483647) .i64).bind id).bind fun a => (some wmin).bind fun b => CmpOp.gt.run (.width a) (.width b)) = some true := by decide +kernel
-- tests/width_t.cpp 248
example : ((((some 1).bind neg).bind fun a => (satMulFn a (2147483648) .i64).bind id).bind fun a => (some wmin).bind fun b => CmpOp.eq.run (.width a) (.width b)) = some true := by decide +kernel
-- tests/width_t.cpp 249
example : ((((some 1).bind neg).bind fun a => (satMulFn a (2147483649) .i64).bind id).bind fun a => (some wmin).bind fun b => CmpOp.eq.run (.width a) (.width b)) = some true := by decide +kernel
-- tests/width_t.cpp 252
example : (((literal [0] []).bind fun a => (satMulFn a (10) .u64).bind id).bind fun a => (literal [0] []).bind fun b => CmpOp.eq.run (.width a) (.width b)) = some true := by decide +kernel
-- tests/width_t.cpp 253
example : ((((literal [2] [5]).bind neg).bind fun a => (satMulFn a (10) .u64).bind id).bind fun a => ((literal [2, 5] []).bind neg).bind fun b => CmpOp.eq.run (.width a) (.width b)) = some true := by decide +kernel
-- tests/width_t.cpp 254
example : (((literal [2, 0, 0, 0, 0] []).bind fun a => (satMulFn a (20000) .u64).bind id).bind fun a => (some wmax).bind fun b => CmpOp.eq.run (.width a) (.width b)) = some true := by decide +kernel
-- tests/width_t.cpp 255
example : ((((literal [2, 0, 0, 0, 0] []).bind neg).bind fun a => (satMulFn a (20000) .u64).bind id).bind fun a => (some wmin).bind fun b => CmpOp.eq.run (.width a) (.width b)) = some true := by decide +kernel
-- tests/width_t.cpp 256
example : (((some 1).bind fun a => (satMulFn a (2147483646) .u64).bind id).bind fun a => (some wmax).bind fun b => CmpOp.lt.run (.width a) (.width b)) = some true := by decide +kernel
-- tests/width_t.cpp 257
example : (((some 1).bind fun a => (satMulFn a (2147483647) .u64).bind id).bind fun a => (some wmax).bind fun b => CmpOp.eq.run (.width a) (.width b)) = some true := by decide +kernel
-- tests/width_t.cpp 258
example : (((some 1).bind fun a => (satMulFn a (2147483648) .u64).bind id).bind fun a => (some wmax).bind fun b => CmpOp.eq.run (.width a) (.width b)) = some true := by decide +kernel
-- tests/width_t.cpp 259
example : ((((some 1).bind neg).bind fun a => (satMulFn a (2147483647) .u64).bind id).bind fun a => (some wmin).bind fun b => CmpOp.gt.run (.width a) (.width b)) = some true := by decide +kernel
-- tests/width_t.cpp 260
example : ((((some 1).bind neg).bind fun a => (satMulFn a (2147483648) .u64).bind id).bind fun a => (some wmin).bind fun b => CmpOp.eq.run (.width a) (.width b)) = some true := by decide +kernel
-- tests/width_t.cpp 261
example : ((((some 1).bind neg).bind fun a => (satMulFn a (2147483649) .u64).bind id).bind fun a => (some wmin).bind fun b => CmpOp.eq.run (.width a) (.width b)) = some true := by decide +kernel
-- tests/width_t.cpp 264
example : (((literal [2] []).bind fun a => (compareFn a (1) .i16).bind id).map fun a => decide (a > 0)) = some true := by decide +kernel
-- tests/width_t.cpp 265
example : (((literal [2] []).bind fun a => (compareFn a (2) .i16).bind id).map fun a => decide (a = 0)) = some true := by decide +kernel
-- tests/width_t.cpp 266
example : (((literal [1] []).bind fun a => (compareFn a (2) .i16).bind id).map fun a => decide (a < 0)) = some true := by decide +kernel
-- tests/width_t.cpp 267
example : (((some wmax).bind fun a => (compareFn a (32767) .i16).bind id).map fun a => decide (a > 0)) = some true := by decide +kernel
-- tests/width_t.cpp 268
example : (((some 1).bind fun a => (compareFn a (0) .i16).bind id).map fun a => decide (a > 0)) = some true := by decide +kernel
-- tests/width_t.cpp 269
example : ((((some 1).bind neg).bind fun a => (compareFn a (0) .i16).bind id).map fun a => decide (a < 0)) = some true := by decide +kernel
-- tests/width_t.cpp 270
example : (((some wmin).bind fun a => (compareFn a (-32768) .i16).bind id).map fun a => decide (a = 0)) = some true := by decide +kernel
-- tests/width_t.cpp 271
example : (((some wmin).bind fun a => (compareFn a (-32767) .i16).bind id).map fun a => decide (a < 0)) = some true := by decide +kernel
-- tests/width_t.cpp 274
example : (((literal [2] []).bind fun a => (compareFn a (1) .u16).bind id).map fun a => decide (a > 0)) = some true := by decide +kernel
-- tests/width_t.cpp 275
example : (((literal [2] []).bind fun a => (compareFn a (2) .u16).bind id).map fun a => decide (a = 0)) = some true := by decide +kernel
-- tests/width_t.cpp 276
example : (((literal [1] []).bind fun a => (compareFn a (2) .u16).bind id).map fun a => decide (a < 0)) = some true := by decide +kernel
-- tests/width_t.cpp 277
example : (((some wmax).bind fun a => (compareFn a (65535) .u16).bind id).map fun a => decide (a < 0)) = some true := by decide +kernel
-- tests/width_t.cpp 278
example : (((some wmax).bind fun a => (compareFn a (32768) .u16).bind id).map fun a => decide (a < 0)) = some true := by decide +kernel
-- tests/width_t.cpp 279
example : (((some wmax).bind fun a => (compareFn a (32767) .u16).bind id).map fun a => decide (a > 0)) = some true := by decide +kernel
-- tests/width_t.cpp 280
example : ((((some 1).bind neg).bind fun a => (compareFn a (0) .u16).bind id).map fun a => decide (a < 0)) = some true := by decide +kernel
-- tests/width_t.cpp 283
example : (((literal [2] []).bind fun a => (compareFn a (1) .i32).bind id).map fun a => decide (a > 0)) = some true := by decide +kernel
-- tests/width_t.cpp 284
example : (((literal [2] []).bind fun a => (compareFn a (2) .i32).bind id).map fun a => decide (a = 0)) = some true := by decide +kernel
-- tests/width_t.cpp 285
example : (((literal [1] []).bind fun a => (compareFn a (2) .i32).bind id).map fun a => decide (a < 0)) = some true := by decide +kernel
-- tests/width_t.cpp 286
example : (((some wmax).bind fun a => (compareFn a (32768) .i32).bind id).map fun a => decide (a < 0)) = some true := by decide +kernel
-- tests/width_t.cpp 287
example : (((some wmax).bind fun a => (compareFn a (32767) .i32).bind id).map fun a => decide (a > 0)) = some true := by decide +kernel
-- tests/width_t.cpp 288
example : (((some wmin).bind fun a => (compareFn a (-32768) .i32).bind id).map fun a => decide (a = 0)) = some true := by decide +kernel
-- tests/width_t.cpp 289
example : (((some wmin).bind fun a => (compareFn a (-32769) .i32).bind id).map fun a => decide (a > 0)) = some true := by decide +kernel
-- tests/width_t.cpp 292
example : (((literal [2] []).bind fun a => (compareFn a (1) .u32).bind id).map fun a => decide (a > 0)) = some true := by decide +kernel
-- tests/width_t.cpp 293
example : (((literal [2] []).bind fun a => (compareFn a (2) .u32).bind id).map fun a => decide (a = 0)) = some true := by decide +kernel
-- tests/width_t.cpp 294
example : (((literal [1] []).bind fun a => (compareFn a (2) .u32).bind id).map fun a => decide (a < 0)) = some true := by decide +kernel
-- tests/width_t.cpp 295
example : (((some wmax).bind fun a => (compareFn a (32768) .u32).bind id).map fun a => decide (a < 0)) = some true := by decide +kernel
-- tests/width_t.cpp 296
example : (((some wmax).bind fun a => (compareFn a (32767) .u32).bind id).map fun a => decide (a > 0)) = some true := by decide +kernel
-- tests/width_t.cpp 299
example : (((literal [2] []).bind fun a => (compareFn a (1) .i64).bind id).map fun a => decide (a > 0)) = some true := by decide +kernel
-- tests/width_t.cpp 300
example : (((literal [2] []).bind fun a => (compareFn a (2) .i64).bind id).map fun a => decide (a = 0)) = some true := by decide +kernel
-- tests/width_t.cpp 301
example : (((literal [1] []).bind fun a => (compareFn a (2) .i64).bind id).map fun a => decide (a < 0)) = some true := by decide +kernel
-- tests/width_t.cpp 302
example : (((some wmax).bind fun a => (compareFn a (32768) .i64).bind id).map fun a => decide (a < 0)) = some true := by decide +kernel
-- tests/width_t.cpp 303
example : (((some wmax).bind fun a => (compareFn a (32767) .i64).bind id).map fun a => decide (a > 0)) = some true := by decide +kernel
-- tests/width_t.cpp 304
example : (((some wmin).bind fun a => (compareFn a (-32768) .i64).bind id).map fun a => decide (a = 0)) = some true := by decide +kernel
-- tests/width_t.cpp 305
example : (((some wmin).bind fun a => (compareFn a (-32769) .i64).bind id).map fun a => decide (a > 0)) = some true := by decide +kernel
-- tests/width_t.cpp 308
example : (((literal [2] []).bind fun a => (compareFn a (1) .u64).bind id).map fun a => decide (a > 0)) = some true := by decide +kernel
-- tests/width_t.cpp 309
example : (((literal [2] []).bind fun a => (compareFn a (2) .u64).bind id).map fun a => decide (a = 0)) = some true := by decide +kernel
-- tests/width_t.cpp 310
example : (((literal [1] []).bind fun a => (compareFn a (2) .u64).bind id).map fun a => decide (a < 0)) = some true := by decide +kernel
-- tests/width_t.cpp 311
example : (((some wmax).bind fun a => (compareFn a (32768) .u64).bind id).map fun a => decide (a < 0)) = some true := by decide +kernel
-- tests/width_t.cpp 312
example : (((some wmax).bind fun a => (compareFn a (32767) .u64).bind id).map fun a => decide (a > 0)) = some true := by decide +kernel
-- tests/width_t.cpp 315
example : (((literal [2] []).bind fun b => (compareFlippedFn (1) b .i32).bind id).map fun a => decide (a < 0)) = some true := by decide +kernel
-- tests/width_t.cpp 316
example : (((literal [2] []).bind fun b => (compareFlippedFn (2) b .i32).bind id).map fun a => decide (a = 0)) = some true := by decide +kernel
-- tests/width_t.cpp 317
example : (((literal [2] []).bind fun b => (compareFlippedFn (3) b .i32).bind id).map fun a => decide (a > 0)) = some true := by decide +kernel

end Strf.Width
