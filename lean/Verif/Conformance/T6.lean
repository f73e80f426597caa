import Verif.Conformance.Base
/-! Generated by tools/conformance.py from /repo/tests: see Verif/Conformance/Base.lean. Tests of the model, not proofs. -/
namespace Strf.Program
open Strf.Format

set_option maxRecDepth 100000 in
example : allPrint [
  /- input_bool.cpp 51 -/ (.char, ⟨[], [], [.bool (some [.center 655360]) false], false⟩, [32, 32, 102, 97, 108, 115, 101, 32, 32, 32]),
  /- input_bool.cpp 52 -/ (.char, ⟨[], [], [.bool (some [.right 655360]) false], false⟩, [32, 32, 32, 32, 32, 102, 97, 108, 115, 101]),
  /- input_bool.cpp 53 -/ (.char, ⟨[], [.facet .lettercase (.lettercase .mixed)], [.bool (some [.right 655360]) false], false⟩, [32, 32, 32, 32, 32, 70, 97, 108, 115, 101]),
  /- input_bool.cpp 54 -/ (.char, ⟨[], [.facet .lettercase (.lettercase .upper)], [.bool (some [.right 655360]) false], false⟩, [32, 32, 32, 32, 32, 70, 65, 76, 83, 69]),
  /- input_bool.cpp 58 -/ (.char, ⟨[], [], [.alignedJoin ⟨95, .right, 1310720⟩ [.bool none true]], false⟩, [95, 95, 95, 95, 95, 95, 95, 95, 95, 95, 95, 95, 95, 95, 95, 95, 116, 114, 117, 101]),
  /- input_bool.cpp 59 -/ (.char16, ⟨[], [], [.alignedJoin ⟨95, .right, 1310720⟩ [.bool none true]], false⟩, [95, 95, 95, 95, 95, 95, 95, 95, 95, 95, 95, 95, 95, 95, 95, 95, 116, 114, 117, 101]),
  /- input_bool.cpp 60 -/ (.char32, ⟨[], [], [.alignedJoin ⟨95, .right, 1310720⟩ [.bool none true]], false⟩, [95, 95, 95, 95, 95, 95, 95, 95, 95, 95, 95, 95, 95, 95, 95, 95, 116, 114, 117, 101]),
  /- input_bool.cpp 61 -/ ((.wchar true), ⟨[], [], [.alignedJoin ⟨95, .right, 1310720⟩ [.bool none true]], false⟩, [95, 95, 95, 95, 95, 95, 95, 95, 95, 95, 95, 95, 95, 95, 95, 95, 116, 114, 117, 101]),
  /- input_bool.cpp 62 -/ (.char, ⟨[], [], [.alignedJoin ⟨95, .right, 1310720⟩ [.bool none false]], false⟩, [95, 95, 95, 95, 95, 95, 95, 95, 95, 95, 95, 95, 95, 95, 95, 102, 97, 108, 115, 101]),
  /- input_bool.cpp 63 -/ (.char16, ⟨[], [], [.alignedJoin ⟨95, .right, 1310720⟩ [.bool none false]], false⟩, [95, 95, 95, 95, 95, 95, 95, 95, 95, 95, 95, 95, 95, 95, 95, 102, 97, 108, 115, 101]),
  /- input_bool.cpp 64 -/ (.char32, ⟨[], [], [.alignedJoin ⟨95, .right, 1310720⟩ [.bool none false]], false⟩, [95, 95, 95, 95, 95, 95, 95, 95, 95, 95, 95, 95, 95, 95, 95, 102, 97, 108, 115, 101]),
  /- input_bool.cpp 65 -/ ((.wchar true), ⟨[], [], [.alignedJoin ⟨95, .right, 1310720⟩ [.bool none false]], false⟩, [95, 95, 95, 95, 95, 95, 95, 95, 95, 95, 95, 95, 95, 95, 95, 102, 97, 108, 115, 101]),
  /- input_bool.cpp 67 -/ (.char, ⟨[], [], [.alignedJoin ⟨95, .right, 1310720⟩ [.bool (some [.left 655360]) true]], false⟩, [95, 95, 95, 95, 95, 95, 95, 95, 95, 95, 116, 114, 117, 101, 32, 32, 32, 32, 32, 32]),
  /- input_bool.cpp 68 -/ (.char, ⟨[], [], [.alignedJoin ⟨95, .right, 1310720⟩ [.bool (some [.center 655360]) true]], false⟩, [95, 95, 95, 95, 95, 95, 95, 95, 95, 95, 32, 32, 32, 116, 114, 117, 101, 32, 32, 32]),
  /- input_bool.cpp 69 -/ (.char, ⟨[], [], [.alignedJoin ⟨95, .right, 1310720⟩ [.bool (some [.right 655360]) true]], false⟩, [95, 95, 95, 95, 95, 95, 95, 95, 95, 95, 32, 32, 32, 32, 32, 32, 116, 114, 117, 101]),
  /- input_bool.cpp 71 -/ (.char, ⟨[], [], [.alignedJoin ⟨95, .right, 1310720⟩ [.bool (some [.left 655360]) false]], false⟩, [95, 95, 95, 95, 95, 95, 95, 95, 95, 95, 102, 97, 108, 115, 101, 32, 32, 32, 32, 32]),
  /- input_bool.cpp 72 -/ (.char, ⟨[], [], [.alignedJoin ⟨95, .right, 1310720⟩ [.bool (some [.center 655360]) false]], false⟩, [95, 95, 95, 95, 95, 95, 95, 95, 95, 95, 32, 32, 102, 97, 108, 115, 101, 32, 32, 32]),
  /- input_bool.cpp 73 -/ (.char, ⟨[], [], [.alignedJoin ⟨95, .right, 1310720⟩ [.bool (some [.right 655360]) false]], false⟩, [95, 95, 95, 95, 95, 95, 95, 95, 95, 95, 32, 32, 32, 32, 32, 102, 97, 108, 115, 101]),
  /- join.cpp 10 -/ (.char, ⟨[], [], [.alignedJoin ⟨32, .center, 983040⟩ [.str .char [] [97, 98, 99], .str .char [] [100, 101], .str .char [] [102], .int ⟨.int, true⟩ [] 123]], false⟩, [32, 32, 32, 97, 98, 99, 100, 101, 102, 49, 50, 51, 32, 32, 32]),
  /- join.cpp 11 -/ (.char, ⟨[], [], [.alignedJoin ⟨32, .left, 786432⟩ [.str .char [] [97, 98, 99], .str .char [] [100, 101, 102], .int ⟨.int, true⟩ [] 123]], false⟩, [97, 98, 99, 100, 101, 102, 49, 50, 51, 32, 32, 32]),
  /- join.cpp 12 -/ (.char, ⟨[], [], [.alignedJoin ⟨32, .right, 786432⟩ [.str .char [] [97, 98, 99], .str .char [] [100, 101, 102], .int ⟨.int, true⟩ [] 123]], false⟩, [32, 32, 32, 97, 98, 99, 100, 101, 102, 49, 50, 51]),
  /- join.cpp 13 -/ (.char, ⟨[], [], [.alignedJoin ⟨126, .right, 786432⟩ [.str .char [] [97, 98, 99], .str .char [] [100, 101, 102], .int ⟨.int, true⟩ [] 123]], false⟩, [126, 126, 126, 97, 98, 99, 100, 101, 102, 49, 50, 51]),
  /- join.cpp 14 -/ (.char, ⟨[], [], [.alignedJoin ⟨32, .center, 589824⟩ [.str .char [] [97, 98, 99], .str .char [] [100, 101, 102], .int ⟨.int, true⟩ [] 123]], false⟩, [97, 98, 99, 100, 101, 102, 49, 50, 51]),
  /- join.cpp 15 -/ (.char, ⟨[], [], [.alignedJoin ⟨32, .left, 589824⟩ [.str .char [] [97, 98, 99], .str .char [] [100, 101, 102], .int ⟨.int, true⟩ [] 123]], false⟩, [97, 98, 99, 100, 101, 102, 49, 50, 51]),
  /- join.cpp 16 -/ (.char, ⟨[], [], [.alignedJoin ⟨32, .right, 589824⟩ [.str .char [] [97, 98, 99], .str .char [] [100, 101, 102], .int ⟨.int, true⟩ [] 123]], false⟩, [97, 98, 99, 100, 101, 102, 49, 50, 51]),
  /- join.cpp 17 -/ (.char, ⟨[], [], [.alignedJoin ⟨32, .center, 524288⟩ [.str .char [] [97, 98, 99], .str .char [] [100, 101, 102], .int ⟨.int, true⟩ [] 123]], false⟩, [97, 98, 99, 100, 101, 102, 49, 50, 51]),
  /- join.cpp 18 -/ (.char, ⟨[], [], [.alignedJoin ⟨32, .left, 524288⟩ [.str .char [] [97, 98, 99], .str .char [] [100, 101, 102], .int ⟨.int, true⟩ [] 123]], false⟩, [97, 98, 99, 100, 101, 102, 49, 50, 51]),
  /- join.cpp 19 -/ (.char, ⟨[], [], [.alignedJoin ⟨32, .right, 524288⟩ [.str .char [] [97, 98, 99], .str .char [] [100, 101, 102], .int ⟨.int, true⟩ [] 123]], false⟩, [97, 98, 99, 100, 101, 102, 49, 50, 51]),
  /- join.cpp 20 -/ (.char, ⟨[], [], [.join [.str .char [] [97, 98, 99], .str .char [] [100, 101, 102], .int ⟨.int, true⟩ [] 123]], false⟩, [97, 98, 99, 100, 101, 102, 49, 50, 51]),
  /- join.cpp 23 -/ (.char, ⟨[], [], [.alignedJoin ⟨32, .center, 983040⟩ [.str .char [] [97, 98, 99], .str .char [] [100, 101], .str .char [] [102], .int ⟨.int, true⟩ [] 123]], false⟩, [32, 32, 32, 97, 98, 99, 100, 101, 102, 49, 50, 51, 32, 32, 32]),
  /- join.cpp 24 -/ (.char, ⟨[], [], [.alignedJoin ⟨32, .left, 786432⟩ [.str .char [] [97, 98, 99], .str .char [] [100, 101, 102], .int ⟨.int, true⟩ [] 123]], false⟩, [97, 98, 99, 100, 101, 102, 49, 50, 51, 32, 32, 32]),
  /- join.cpp 25 -/ (.char, ⟨[], [], [.alignedJoin ⟨32, .right, 786432⟩ [.str .char [] [97, 98, 99], .str .char [] [100, 101, 102], .int ⟨.int, true⟩ [] 123]], false⟩, [32, 32, 32, 97, 98, 99, 100, 101, 102, 49, 50, 51]),
  /- join.cpp 26 -/ (.char, ⟨[], [], [.alignedJoin ⟨126, .right, 786432⟩ [.str .char [] [97, 98, 99], .str .char [] [100, 101, 102], .int ⟨.int, true⟩ [] 123]], false⟩, [126, 126, 126, 97, 98, 99, 100, 101, 102, 49, 50, 51]),
  /- join.cpp 27 -/ (.char, ⟨[], [], [.alignedJoin ⟨32, .center, 589824⟩ [.str .char [] [97, 98, 99], .str .char [] [100, 101, 102], .int ⟨.int, true⟩ [] 123]], false⟩, [97, 98, 99, 100, 101, 102, 49, 50, 51]),
  /- join.cpp 28 -/ (.char, ⟨[], [], [.alignedJoin ⟨32, .left, 589824⟩ [.str .char [] [97, 98, 99], .str .char [] [100, 101, 102], .int ⟨.int, true⟩ [] 123]], false⟩, [97, 98, 99, 100, 101, 102, 49, 50, 51]),
  /- join.cpp 29 -/ (.char, ⟨[], [], [.alignedJoin ⟨32, .right, 589824⟩ [.str .char [] [97, 98, 99], .str .char [] [100, 101, 102], .int ⟨.int, true⟩ [] 123]], false⟩, [97, 98, 99, 100, 101, 102, 49, 50, 51]),
  /- join.cpp 30 -/ (.char, ⟨[], [], [.alignedJoin ⟨32, .center, 524288⟩ [.str .char [] [97, 98, 99], .str .char [] [100, 101, 102], .int ⟨.int, true⟩ [] 123]], false⟩, [97, 98, 99, 100, 101, 102, 49, 50, 51]),
  /- join.cpp 31 -/ (.char, ⟨[], [], [.alignedJoin ⟨32, .left, 524288⟩ [.str .char [] [97, 98, 99], .str .char [] [100, 101, 102], .int ⟨.int, true⟩ [] 123]], false⟩, [97, 98, 99, 100, 101, 102, 49, 50, 51]),
  /- join.cpp 32 -/ (.char, ⟨[], [], [.alignedJoin ⟨32, .right, 524288⟩ [.str .char [] [97, 98, 99], .str .char [] [100, 101, 102], .int ⟨.int, true⟩ [] 123]], false⟩, [97, 98, 99, 100, 101, 102, 49, 50, 51]),
  /- join.cpp 33 -/ (.char, ⟨[], [], [.join [.str .char [] [97, 98, 99], .str .char [] [100, 101, 102], .int ⟨.int, true⟩ [] 123]], false⟩, [97, 98, 99, 100, 101, 102, 49, 50, 51])] = true := by decide +kernel

set_option maxRecDepth 100000 in
example : allPrint [
  /- join.cpp 36 -/ (.char, ⟨[], [], [.join []], false⟩, []),
  /- join.cpp 38 -/ (.char, ⟨[], [], [.alignedJoin ⟨32, .center, 524288⟩ []], false⟩, [32, 32, 32, 32, 32, 32, 32, 32]),
  /- join.cpp 39 -/ (.char, ⟨[], [], [.alignedJoin ⟨32, .left, 524288⟩ []], false⟩, [32, 32, 32, 32, 32, 32, 32, 32]),
  /- join.cpp 40 -/ (.char, ⟨[], [], [.alignedJoin ⟨32, .right, 524288⟩ []], false⟩, [32, 32, 32, 32, 32, 32, 32, 32]),
  /- join.cpp 42 -/ (.char, ⟨[], [], [.alignedJoin ⟨32, .center, 524288⟩ []], false⟩, [32, 32, 32, 32, 32, 32, 32, 32]),
  /- join.cpp 43 -/ (.char, ⟨[], [], [.alignedJoin ⟨32, .left, 524288⟩ []], false⟩, [32, 32, 32, 32, 32, 32, 32, 32]),
  /- join.cpp 44 -/ (.char, ⟨[], [], [.alignedJoin ⟨32, .right, 524288⟩ []], false⟩, [32, 32, 32, 32, 32, 32, 32, 32]),
  /- join.cpp 49 -/ (.char, ⟨[], [], [.alignedJoin ⟨32, .right, 983040⟩ [.str .char [] [45, 45, 123], .alignedJoin ⟨32, .center, 327680⟩ [.rawChr .char 97, .rawChr .char 98, .rawChr .char 99], .str .char [] [125, 45, 45]]], false⟩, [32, 32, 32, 32, 45, 45, 123, 32, 97, 98, 99, 32, 125, 45, 45]),
  /- join.cpp 52 -/ (.char, ⟨[], [], [.alignedJoin ⟨32, .right, 983040⟩ [.str .char [] [45, 45, 123], .alignedJoin ⟨32, .center, 131072⟩ [.rawChr .char 97, .rawChr .char 98, .rawChr .char 99], .str .char [] [125, 45, 45]]], false⟩, [32, 32, 32, 32, 32, 32, 45, 45, 123, 97, 98, 99, 125, 45, 45]),
  /- join.cpp 55 -/ (.char, ⟨[], [], [.alignedJoin ⟨32, .right, 524288⟩ [.str .char [] [45, 45, 123], .alignedJoin ⟨32, .center, 131072⟩ [.rawChr .char 97, .rawChr .char 98, .rawChr .char 99], .str .char [] [125, 45, 45]]], false⟩, [45, 45, 123, 97, 98, 99, 125, 45, 45]),
  /- join.cpp 58 -/ (.char, ⟨[], [], [.alignedJoin ⟨32, .right, 655360⟩ [.str .char [] [45, 45, 123], .alignedJoin ⟨32, .center, 327680⟩ [.rawChr .char 97, .rawChr .char 98, .rawChr .char 99], .str .char [] [125, 45, 45]]], false⟩, [45, 45, 123, 32, 97, 98, 99, 32, 125, 45, 45]),
  /- join.cpp 61 -/ (.char, ⟨[], [], [.alignedJoin ⟨32, .right, 983040⟩ [.str .char [] [45, 45, 123], .join [.rawChr .char 97, .rawChr .char 98, .rawChr .char 99], .str .char [] [125, 45, 45]]], false⟩, [32, 32, 32, 32, 32, 32, 45, 45, 123, 97, 98, 99, 125, 45, 45]),
  /- join.cpp 64 -/ (.char, ⟨[], [], [.alignedJoin ⟨32, .right, 524288⟩ [.str .char [] [45, 45, 123], .join [.rawChr .char 97, .rawChr .char 98, .rawChr .char 99], .str .char [] [125, 45, 45]]], false⟩, [45, 45, 123, 97, 98, 99, 125, 45, 45]),
  /- join.cpp 69 -/ (.char, ⟨[], [], [.alignedJoin ⟨32, .right, 983040⟩ [.str .char [] [45, 45, 123], .alignedJoin ⟨32, .center, 327680⟩ [.rawChr .char 97, .rawChr .char 98, .rawChr .char 99], .str .char [] [125, 45, 45]]], false⟩, [32, 32, 32, 32, 45, 45, 123, 32, 97, 98, 99, 32, 125, 45, 45]),
  /- join.cpp 72 -/ (.char, ⟨[], [], [.alignedJoin ⟨32, .right, 983040⟩ [.str .char [] [45, 45, 123], .alignedJoin ⟨32, .center, 131072⟩ [.rawChr .char 97, .rawChr .char 98, .rawChr .char 99], .str .char [] [125, 45, 45]]], false⟩, [32, 32, 32, 32, 32, 32, 45, 45, 123, 97, 98, 99, 125, 45, 45]),
  /- join.cpp 75 -/ (.char, ⟨[], [], [.alignedJoin ⟨32, .right, 524288⟩ [.str .char [] [45, 45, 123], .alignedJoin ⟨32, .center, 131072⟩ [.rawChr .char 97, .rawChr .char 98, .rawChr .char 99], .str .char [] [125, 45, 45]]], false⟩, [45, 45, 123, 97, 98, 99, 125, 45, 45]),
  /- join.cpp 78 -/ (.char, ⟨[], [], [.alignedJoin ⟨32, .right, 655360⟩ [.str .char [] [45, 45, 123], .alignedJoin ⟨32, .center, 327680⟩ [.rawChr .char 97, .rawChr .char 98, .rawChr .char 99], .str .char [] [125, 45, 45]]], false⟩, [45, 45, 123, 32, 97, 98, 99, 32, 125, 45, 45]),
  /- join.cpp 81 -/ (.char, ⟨[], [], [.alignedJoin ⟨32, .right, 983040⟩ [.str .char [] [45, 45, 123], .join [.rawChr .char 97, .rawChr .char 98, .rawChr .char 99], .str .char [] [125, 45, 45]]], false⟩, [32, 32, 32, 32, 32, 32, 45, 45, 123, 97, 98, 99, 125, 45, 45]),
  /- join.cpp 84 -/ (.char, ⟨[], [], [.alignedJoin ⟨32, .right, 524288⟩ [.str .char [] [45, 45, 123], .join [.rawChr .char 97, .rawChr .char 98, .rawChr .char 99], .str .char [] [125, 45, 45]]], false⟩, [45, 45, 123, 97, 98, 99, 125, 45, 45]),
  /- input_range.cpp 56 -/ (.char, ⟨[], [], [.str .char [] [45, 45, 45], .range [.int ⟨.int, true⟩ [] 11, .int ⟨.int, true⟩ [] 22, .int ⟨.int, true⟩ [] 33, .int ⟨.int, true⟩ [] 44], .str .char [] [45, 45, 45]], false⟩, [45, 45, 45, 49, 49, 50, 50, 51, 51, 52, 52, 45, 45, 45]),
  /- input_range.cpp 60 -/ (.char, ⟨[], [], [.str .char [] [45, 45, 45], .range [.int ⟨.int, true⟩ [.plus] 11, .int ⟨.int, true⟩ [.plus] 22, .int ⟨.int, true⟩ [.plus] 33, .int ⟨.int, true⟩ [.plus] 44], .str .char [] [45, 45, 45]], false⟩, [45, 45, 45, 43, 49, 49, 43, 50, 50, 43, 51, 51, 43, 52, 52, 45, 45, 45]),
  /- input_range.cpp 64 -/ (.char, ⟨[], [], [.str .char [] [45, 45, 45], .range [.int ⟨.int, true⟩ [.plus] 11, .int ⟨.int, true⟩ [.plus] 22, .int ⟨.int, true⟩ [.plus] 33, .int ⟨.int, true⟩ [.plus] 44], .str .char [] [45, 45, 45]], false⟩, [45, 45, 45, 43, 49, 49, 43, 50, 50, 43, 51, 51, 43, 52, 52, 45, 45, 45]),
  /- input_range.cpp 68 -/ (.char, ⟨[], [], [.str .char [] [45, 45, 45], .range [.int ⟨.int, true⟩ [.plus, .align (.right 262144)] 11, .int ⟨.int, true⟩ [.plus, .align (.right 262144)] 22, .int ⟨.int, true⟩ [.plus, .align (.right 262144)] 33, .int ⟨.int, true⟩ [.plus, .align (.right 262144)] 44], .str .char [] [45, 45, 45]], false⟩, [45, 45, 45, 32, 43, 49, 49, 32, 43, 50, 50, 32, 43, 51, 51, 32, 43, 52, 52, 45, 45, 45]),
  /- input_range.cpp 72 -/ (.char, ⟨[], [], [.str .char [] [45, 45, 45], .alignedJoin ⟨32, .right, 655360⟩ [.range [.int ⟨.int, true⟩ [] 11, .int ⟨.int, true⟩ [] 22, .int ⟨.int, true⟩ [] 33, .int ⟨.int, true⟩ [] 44]], .str .char [] [45, 45, 45]], false⟩, [45, 45, 45, 32, 32, 49, 49, 50, 50, 51, 51, 52, 52, 45, 45, 45]),
  /- input_range.cpp 76 -/ (.char, ⟨[], [], [.str .char [] [45, 45, 45], .alignedJoin ⟨32, .right, 65536⟩ [.range [.int ⟨.int, true⟩ [] 11, .int ⟨.int, true⟩ [] 22, .int ⟨.int, true⟩ [] 33, .int ⟨.int, true⟩ [] 44]], .str .char [] [45, 45, 45]], false⟩, [45, 45, 45, 49, 49, 50, 50, 51, 51, 52, 52, 45, 45, 45]),
  /- input_range.cpp 80 -/ (.char, ⟨[], [], [.str .char [] [45, 45, 45], .alignedJoin ⟨32, .right, 917504⟩ [.range [.int ⟨.int, true⟩ [.plus] 11, .int ⟨.int, true⟩ [.plus] 22, .int ⟨.int, true⟩ [.plus] 33, .int ⟨.int, true⟩ [.plus] 44]], .str .char [] [45, 45, 45]], false⟩, [45, 45, 45, 32, 32, 43, 49, 49, 43, 50, 50, 43, 51, 51, 43, 52, 52, 45, 45, 45]),
  /- input_range.cpp 84 -/ (.char, ⟨[], [], [.str .char [] [45, 45, 45], .alignedJoin ⟨32, .right, 786432⟩ [.range [.int ⟨.int, true⟩ [.plus] 11, .int ⟨.int, true⟩ [.plus] 22, .int ⟨.int, true⟩ [.plus] 33, .int ⟨.int, true⟩ [.plus] 44]], .str .char [] [45, 45, 45]], false⟩, [45, 45, 45, 43, 49, 49, 43, 50, 50, 43, 51, 51, 43, 52, 52, 45, 45, 45]),
  /- input_range.cpp 88 -/ (.char, ⟨[], [], [.str .char [] [45, 45, 45], .alignedJoin ⟨32, .right, 720896⟩ [.range [.int ⟨.int, true⟩ [.plus] 11, .int ⟨.int, true⟩ [.plus] 22, .int ⟨.int, true⟩ [.plus] 33, .int ⟨.int, true⟩ [.plus] 44]], .str .char [] [45, 45, 45]], false⟩, [45, 45, 45, 43, 49, 49, 43, 50, 50, 43, 51, 51, 43, 52, 52, 45, 45, 45]),
  /- input_range.cpp 92 -/ (.char, ⟨[], [], [.str .char [] [45, 45, 45], .range [.int ⟨.int, true⟩ [.plus, .align (.right 262144)] 11, .int ⟨.int, true⟩ [.plus, .align (.right 262144)] 22, .int ⟨.int, true⟩ [.plus, .align (.right 262144)] 33, .int ⟨.int, true⟩ [.plus, .align (.right 262144)] 44], .str .char [] [45, 45, 45]], false⟩, [45, 45, 45, 32, 43, 49, 49, 32, 43, 50, 50, 32, 43, 51, 51, 32, 43, 52, 52, 45, 45, 45]),
  /- input_range.cpp 96 -/ (.char, ⟨[], [], [.str .char [] [45, 45, 45], .alignedJoin ⟨46, .right, 1179648⟩ [.range [.int ⟨.int, true⟩ [.plus, .align (.right 262144)] 11, .int ⟨.int, true⟩ [.plus, .align (.right 262144)] 22, .int ⟨.int, true⟩ [.plus, .align (.right 262144)] 33, .int ⟨.int, true⟩ [.plus, .align (.right 262144)] 44]], .str .char [] [45, 45, 45]], false⟩, [45, 45, 45, 46, 46, 32, 43, 49, 49, 32, 43, 50, 50, 32, 43, 51, 51, 32, 43, 52, 52, 45, 45, 45]),
  /- input_range.cpp 100 -/ (.char, ⟨[], [], [.str .char [] [45, 45, 45], .alignedJoin ⟨46, .right, 1048576⟩ [.range [.int ⟨.int, true⟩ [.plus, .align (.right 262144)] 11, .int ⟨.int, true⟩ [.plus, .align (.right 262144)] 22, .int ⟨.int, true⟩ [.plus, .align (.right 262144)] 33, .int ⟨.int, true⟩ [.plus, .align (.right 262144)] 44]], .str .char [] [45, 45, 45]], false⟩, [45, 45, 45, 32, 43, 49, 49, 32, 43, 50, 50, 32, 43, 51, 51, 32, 43, 52, 52, 45, 45, 45]),
  /- input_range.cpp 104 -/ (.char, ⟨[], [], [.str .char [] [45, 45, 45], .alignedJoin ⟨46, .right, 983040⟩ [.range [.int ⟨.int, true⟩ [.plus, .align (.right 262144)] 11, .int ⟨.int, true⟩ [.plus, .align (.right 262144)] 22, .int ⟨.int, true⟩ [.plus, .align (.right 262144)] 33, .int ⟨.int, true⟩ [.plus, .align (.right 262144)] 44]], .str .char [] [45, 45, 45]], false⟩, [45, 45, 45, 32, 43, 49, 49, 32, 43, 50, 50, 32, 43, 51, 51, 32, 43, 52, 52, 45, 45, 45]),
  /- input_range.cpp 111 -/ (.char, ⟨[], [], [.range [.str .char [] [97, 97], .str .char [] [98, 98], .str .char [] [99, 99]]], false⟩, [97, 97, 98, 98, 99, 99]),
  /- input_range.cpp 112 -/ (.char, ⟨[], [], [.range [.str .char [.align (.set 46 262144 .right)] [97, 97], .str .char [.align (.set 46 262144 .right)] [98, 98], .str .char [.align (.set 46 262144 .right)] [99, 99]]], false⟩, [46, 46, 97, 97, 46, 46, 98, 98, 46, 46, 99, 99]),
  /- input_range.cpp 113 -/ (.char, ⟨[], [], [.alignedJoin ⟨45, .left, 917504⟩ [.range [.str .char [.align (.set 46 262144 .right)] [97, 97], .str .char [.align (.set 46 262144 .right)] [98, 98], .str .char [.align (.set 46 262144 .right)] [99, 99]]]], false⟩, [46, 46, 97, 97, 46, 46, 98, 98, 46, 46, 99, 99, 45, 45]),
  /- input_range.cpp 116 -/ (.char, ⟨[], [], [.alignedJoin ⟨45, .left, 786432⟩ [.range [.str .char [.align (.set 46 262144 .right)] [97, 97], .str .char [.align (.set 46 262144 .right)] [98, 98], .str .char [.align (.set 46 262144 .right)] [99, 99]]]], false⟩, [46, 46, 97, 97, 46, 46, 98, 98, 46, 46, 99, 99]),
  /- input_range.cpp 119 -/ (.char, ⟨[], [], [.alignedJoin ⟨45, .left, 720896⟩ [.range [.str .char [.align (.set 46 262144 .right)] [97, 97], .str .char [.align (.set 46 262144 .right)] [98, 98], .str .char [.align (.set 46 262144 .right)] [99, 99]]]], false⟩, [46, 46, 97, 97, 46, 46, 98, 98, 46, 46, 99, 99]),
  /- input_range.cpp 124 -/ (.char, ⟨[], [], [.range [.rawChr .char 97, .rawChr .char 98, .rawChr .char 99, .rawChr .char 100]], false⟩, [97, 98, 99, 100]),
  /- input_range.cpp 125 -/ (.char, ⟨[], [], [.separatedRange false [44, 32] [.rawChr .char 97, .rawChr .char 98, .rawChr .char 99, .rawChr .char 100]], false⟩, [97, 44, 32, 98, 44, 32, 99, 44, 32, 100]),
  /- input_range.cpp 126 -/ (.char, ⟨[], [], [.range [.rawChr .char 97, .rawChr .char 98, .rawChr .char 99]], false⟩, [97, 98, 99])] = true := by decide +kernel

set_option maxRecDepth 100000 in
example : allPrint [
  /- input_range.cpp 127 -/ (.char, ⟨[], [], [.separatedRange false [44, 32] [.rawChr .char 97, .rawChr .char 98, .rawChr .char 99]], false⟩, [97, 44, 32, 98, 44, 32, 99]),
  /- input_range.cpp 129 -/ (.char, ⟨[], [], [.range [.chr .char [.multi 3] 97, .chr .char [.multi 3] 98, .chr .char [.multi 3] 99, .chr .char [.multi 3] 100]], false⟩, [97, 97, 97, 98, 98, 98, 99, 99, 99, 100, 100, 100]),
  /- input_range.cpp 130 -/ (.char, ⟨[], [], [.alignedJoin ⟨32, .right, 1179648⟩ [.str .char [] [45, 45], .range [.chr .char [.multi 3] 97, .chr .char [.multi 3] 98, .chr .char [.multi 3] 99, .chr .char [.multi 3] 100], .str .char [] [45, 45]]], false⟩, [32, 32, 45, 45, 97, 97, 97, 98, 98, 98, 99, 99, 99, 100, 100, 100, 45, 45]),
  /- input_range.cpp 133 -/ (.char, ⟨[], [], [.alignedJoin ⟨32, .right, 1048576⟩ [.str .char [] [45, 45], .range [.chr .char [.multi 3] 97, .chr .char [.multi 3] 98, .chr .char [.multi 3] 99, .chr .char [.multi 3] 100], .str .char [] [45, 45]]], false⟩, [45, 45, 97, 97, 97, 98, 98, 98, 99, 99, 99, 100, 100, 100, 45, 45]),
  /- input_range.cpp 136 -/ (.char, ⟨[], [], [.alignedJoin ⟨32, .right, 983040⟩ [.str .char [] [45, 45], .range [.chr .char [.multi 3] 97, .chr .char [.multi 3] 98, .chr .char [.multi 3] 99, .chr .char [.multi 3] 100], .str .char [] [45, 45]]], false⟩, [45, 45, 97, 97, 97, 98, 98, 98, 99, 99, 99, 100, 100, 100, 45, 45]),
  /- input_range.cpp 139 -/ (.char, ⟨[], [], [.alignedJoin ⟨32, .right, 131072⟩ [.str .char [] [45, 45], .range [.chr .char [.multi 3] 97, .chr .char [.multi 3] 98, .chr .char [.multi 3] 99, .chr .char [.multi 3] 100], .str .char [] [45, 45]]], false⟩, [45, 45, 97, 97, 97, 98, 98, 98, 99, 99, 99, 100, 100, 100, 45, 45]),
  /- input_range.cpp 145 -/ (.char, ⟨[], [], [.separatedRange false [44, 32] [.int ⟨.int, true⟩ [] 11, .int ⟨.int, true⟩ [] 22, .int ⟨.int, true⟩ [] 33]], false⟩, [49, 49, 44, 32, 50, 50, 44, 32, 51, 51]),
  /- input_range.cpp 146 -/ (.char, ⟨[], [], [.separatedRange false [44, 32] [.int ⟨.int, true⟩ [] 11, .int ⟨.int, true⟩ [] 22, .int ⟨.int, true⟩ [] 33]], false⟩, [49, 49, 44, 32, 50, 50, 44, 32, 51, 51]),
  /- input_range.cpp 147 -/ (.char16, ⟨[], [], [.separatedRange true [44, 32] [.int ⟨.int, true⟩ [.plus] 11, .int ⟨.int, true⟩ [.plus] 22, .int ⟨.int, true⟩ [.plus] 33]], false⟩, [43, 49, 49, 44, 32, 43, 50, 50, 44, 32, 43, 51, 51]),
  /- input_range.cpp 148 -/ (.char16, ⟨[], [], [.separatedRange true [44, 32] [.int ⟨.int, true⟩ [.plus] 11, .int ⟨.int, true⟩ [.plus] 22, .int ⟨.int, true⟩ [.plus] 33]], false⟩, [43, 49, 49, 44, 32, 43, 50, 50, 44, 32, 43, 51, 51]),
  /- input_range.cpp 150 -/ (.char, ⟨[], [], [.separatedRange true [44, 32] [.int ⟨.int, true⟩ [.hex, .star] 11, .int ⟨.int, true⟩ [.hex, .star] 22, .int ⟨.int, true⟩ [.hex, .star] 33]], false⟩, [48, 120, 98, 44, 32, 48, 120, 49, 54, 44, 32, 48, 120, 50, 49]),
  /- input_range.cpp 151 -/ (.char16, ⟨[], [], [.separatedRange true [44, 32] [.int ⟨.int, true⟩ [.hex, .star] 11, .int ⟨.int, true⟩ [.hex, .star] 22, .int ⟨.int, true⟩ [.hex, .star] 33]], false⟩, [48, 120, 98, 44, 32, 48, 120, 49, 54, 44, 32, 48, 120, 50, 49]),
  /- input_range.cpp 153 -/ (.char, ⟨[], [], [.alignedJoin ⟨32, .right, 786432⟩ [.separatedRange false [44, 32] [.int ⟨.int, true⟩ [] 11, .int ⟨.int, true⟩ [] 22, .int ⟨.int, true⟩ [] 33]]], false⟩, [32, 32, 49, 49, 44, 32, 50, 50, 44, 32, 51, 51]),
  /- input_range.cpp 155 -/ (.char, ⟨[], [], [.alignedJoin ⟨32, .right, 1048576⟩ [.str .char [] [45, 45], .separatedRange false [44, 32] [.int ⟨.int, true⟩ [] 11, .int ⟨.int, true⟩ [] 22, .int ⟨.int, true⟩ [] 33], .str .char [] [45, 45]]], false⟩, [32, 32, 45, 45, 49, 49, 44, 32, 50, 50, 44, 32, 51, 51, 45, 45]),
  /- input_range.cpp 158 -/ (.char, ⟨[], [], [.alignedJoin ⟨32, .right, 1179648⟩ [.separatedRange true [44, 32] [.int ⟨.int, true⟩ [.hex, .star] 11, .int ⟨.int, true⟩ [.hex, .star] 22, .int ⟨.int, true⟩ [.hex, .star] 33]]], false⟩, [32, 32, 32, 48, 120, 98, 44, 32, 48, 120, 49, 54, 44, 32, 48, 120, 50, 49]),
  /- input_range.cpp 160 -/ (.char, ⟨[], [], [.alignedJoin ⟨32, .right, 524288⟩ [.str .char [] [45, 45], .separatedRange true [44, 32] [.int ⟨.int, true⟩ [.hex, .star] 11, .int ⟨.int, true⟩ [.hex, .star] 22, .int ⟨.int, true⟩ [.hex, .star] 33], .str .char [] [45, 45]]], false⟩, [45, 45, 48, 120, 98, 44, 32, 48, 120, 49, 54, 44, 32, 48, 120, 50, 49, 45, 45]),
  /- input_range.cpp 162 -/ (.char, ⟨[], [], [.alignedJoin ⟨32, .right, 524288⟩ [.str .char [] [45, 45], .separatedRange false [44, 32] [.int ⟨.int, true⟩ [] 11, .int ⟨.int, true⟩ [] 22, .int ⟨.int, true⟩ [] 33], .str .char [] [45, 45]]], false⟩, [45, 45, 49, 49, 44, 32, 50, 50, 44, 32, 51, 51, 45, 45]),
  /- input_range.cpp 164 -/ (.char, ⟨[], [], [.alignedJoin ⟨32, .right, 458752⟩ [.str .char [] [45, 45], .separatedRange false [44, 32] [.int ⟨.int, true⟩ [] 11, .int ⟨.int, true⟩ [] 22, .int ⟨.int, true⟩ [] 33], .str .char [] [45, 45]]], false⟩, [45, 45, 49, 49, 44, 32, 50, 50, 44, 32, 51, 51, 45, 45]),
  /- input_range.cpp 169 -/ (.char, ⟨[], [], [.range [.int ⟨.int, true⟩ [] 11, .int ⟨.int, true⟩ [] 22, .int ⟨.int, true⟩ [] 33]], false⟩, [49, 49, 50, 50, 51, 51]),
  /- input_range.cpp 170 -/ (.char, ⟨[], [], [.range [.int ⟨.int, true⟩ [] 11, .int ⟨.int, true⟩ [] 22, .int ⟨.int, true⟩ [] 33]], false⟩, [49, 49, 50, 50, 51, 51]),
  /- input_range.cpp 171 -/ (.char, ⟨[], [], [.separatedRange false [44, 32] [.int ⟨.int, true⟩ [] 11, .int ⟨.int, true⟩ [] 22, .int ⟨.int, true⟩ [] 33]], false⟩, [49, 49, 44, 32, 50, 50, 44, 32, 51, 51]),
  /- input_range.cpp 172 -/ (.char16, ⟨[], [], [.range [.int ⟨.int, true⟩ [.plus] 11, .int ⟨.int, true⟩ [.plus] 22, .int ⟨.int, true⟩ [.plus] 33]], false⟩, [43, 49, 49, 43, 50, 50, 43, 51, 51]),
  /- input_range.cpp 173 -/ (.char16, ⟨[], [], [.separatedRange true [44, 32] [.int ⟨.int, true⟩ [.plus] 11, .int ⟨.int, true⟩ [.plus] 22, .int ⟨.int, true⟩ [.plus] 33]], false⟩, [43, 49, 49, 44, 32, 43, 50, 50, 44, 32, 43, 51, 51]),
  /- input_range.cpp 178 -/ (.char, ⟨[], [], [.range [.int ⟨.int, true⟩ [] 11]], false⟩, [49, 49]),
  /- input_range.cpp 179 -/ (.char16, ⟨[], [], [.range [.int ⟨.int, true⟩ [.plus] 11]], false⟩, [43, 49, 49]),
  /- input_range.cpp 180 -/ (.char, ⟨[], [], [.range [.int ⟨.int, true⟩ [.hex, .star] 11]], false⟩, [48, 120, 98]),
  /- input_range.cpp 182 -/ (.char, ⟨[], [], [.separatedRange false [44, 32] [.int ⟨.int, true⟩ [] 11]], false⟩, [49, 49]),
  /- input_range.cpp 183 -/ (.char16, ⟨[], [], [.separatedRange true [44, 32] [.int ⟨.int, true⟩ [.plus] 11]], false⟩, [43, 49, 49]),
  /- input_range.cpp 184 -/ (.char, ⟨[], [], [.separatedRange true [44, 32] [.int ⟨.int, true⟩ [.hex, .star] 11]], false⟩, [48, 120, 98]),
  /- input_range.cpp 188 -/ (.char, ⟨[], [], [.range [.int ⟨.int, true⟩ [] 11]], false⟩, [49, 49]),
  /- input_range.cpp 189 -/ (.char, ⟨[], [], [.range [.int ⟨.int, true⟩ [.plus] 11]], false⟩, [43, 49, 49]),
  /- input_range.cpp 190 -/ (.char, ⟨[], [], [.range [.int ⟨.int, true⟩ [.hex, .star] 11]], false⟩, [48, 120, 98]),
  /- input_range.cpp 192 -/ (.char, ⟨[], [], [.separatedRange false [44, 32] [.int ⟨.int, true⟩ [] 11]], false⟩, [49, 49]),
  /- input_range.cpp 193 -/ (.char16, ⟨[], [], [.separatedRange true [44, 32] [.int ⟨.int, true⟩ [.plus] 11]], false⟩, [43, 49, 49]),
  /- input_range.cpp 194 -/ (.char, ⟨[], [], [.separatedRange true [44, 32] [.int ⟨.int, true⟩ [.hex, .star] 11]], false⟩, [48, 120, 98]),
  /- input_range.cpp 199 -/ (.char, ⟨[], [], [.range []], false⟩, []),
  /- input_range.cpp 200 -/ (.char16, ⟨[], [], [.range []], false⟩, []),
  /- input_range.cpp 201 -/ (.char, ⟨[], [], [.range []], false⟩, []),
  /- input_range.cpp 203 -/ (.char, ⟨[], [], [.separatedRange false [44, 32] []], false⟩, []),
  /- input_range.cpp 204 -/ (.char16, ⟨[], [], [.separatedRange true [44, 32] []], false⟩, [])] = true := by decide +kernel

set_option maxRecDepth 100000 in
example : allPrint [
  /- input_range.cpp 205 -/ (.char, ⟨[], [], [.separatedRange true [44, 32] []], false⟩, []),
  /- input_range.cpp 212 -/ (.char, ⟨[], [], [.range [.join [.rawChr .char 60, .int ⟨.int, true⟩ [] (-11), .rawChr .char 62], .join [.rawChr .char 60, .int ⟨.int, true⟩ [] (-22), .rawChr .char 62], .join [.rawChr .char 60, .int ⟨.int, true⟩ [] (-33), .rawChr .char 62]]], false⟩, [60, 45, 49, 49, 62, 60, 45, 50, 50, 62, 60, 45, 51, 51, 62]),
  /- input_range.cpp 213 -/ (.char, ⟨[], [], [.range [.join [.rawChr .char 60, .int ⟨.int, true⟩ [] (-11), .rawChr .char 62], .join [.rawChr .char 60, .int ⟨.int, true⟩ [] (-22), .rawChr .char 62], .join [.rawChr .char 60, .int ⟨.int, true⟩ [] (-33), .rawChr .char 62]]], false⟩, [60, 45, 49, 49, 62, 60, 45, 50, 50, 62, 60, 45, 51, 51, 62]),
  /- input_range.cpp 214 -/ (.char, ⟨[], [], [.range [.join [.rawChr .char 60, .int ⟨.int, true⟩ [] (-11), .rawChr .char 62], .join [.rawChr .char 60, .int ⟨.int, true⟩ [] (-22), .rawChr .char 62], .join [.rawChr .char 60, .int ⟨.int, true⟩ [] (-33), .rawChr .char 62]]], false⟩, [60, 45, 49, 49, 62, 60, 45, 50, 50, 62, 60, 45, 51, 51, 62]),
  /- input_range.cpp 216 -/ (.char, ⟨[], [], [.separatedRange false [44, 32] [.join [.rawChr .char 60, .int ⟨.int, true⟩ [] (-11), .rawChr .char 62], .join [.rawChr .char 60, .int ⟨.int, true⟩ [] (-22), .rawChr .char 62], .join [.rawChr .char 60, .int ⟨.int, true⟩ [] (-33), .rawChr .char 62]]], false⟩, [60, 45, 49, 49, 62, 44, 32, 60, 45, 50, 50, 62, 44, 32, 60, 45, 51, 51, 62]),
  /- input_range.cpp 217 -/ (.char, ⟨[], [], [.separatedRange false [44, 32] [.join [.rawChr .char 60, .int ⟨.int, true⟩ [] (-11), .rawChr .char 62], .join [.rawChr .char 60, .int ⟨.int, true⟩ [] (-22), .rawChr .char 62], .join [.rawChr .char 60, .int ⟨.int, true⟩ [] (-33), .rawChr .char 62]]], false⟩, [60, 45, 49, 49, 62, 44, 32, 60, 45, 50, 50, 62, 44, 32, 60, 45, 51, 51, 62]),
  /- input_range.cpp 218 -/ (.char, ⟨[], [], [.separatedRange false [44, 32] [.join [.rawChr .char 60, .int ⟨.int, true⟩ [] (-11), .rawChr .char 62], .join [.rawChr .char 60, .int ⟨.int, true⟩ [] (-22), .rawChr .char 62], .join [.rawChr .char 60, .int ⟨.int, true⟩ [] (-33), .rawChr .char 62]]], false⟩, [60, 45, 49, 49, 62, 44, 32, 60, 45, 50, 50, 62, 44, 32, 60, 45, 51, 51, 62]),
  /- input_range.cpp 219 -/ (.char, ⟨[], [], [.separatedRange false [44, 32] [.join [.rawChr .char 60, .int ⟨.int, true⟩ [] (-11), .rawChr .char 62]]], false⟩, [60, 45, 49, 49, 62]),
  /- input_range.cpp 220 -/ (.char, ⟨[], [], [.separatedRange false [44, 32] []], false⟩, []),
  /- input_tr_string.cpp 39 -/ (.char, ⟨[], [], [.tr [123, 125, 95, 95, 123, 125, 95, 95, 123, 125] [.str .char [] [97, 97, 97], .str .char [.align (.set 46 327680 .right)] [98, 98, 98], .int ⟨.int, true⟩ [.hex, .star, .align (.right 262144)] 10]], false⟩, [97, 97, 97, 95, 95, 46, 46, 98, 98, 98, 95, 95, 32, 48, 120, 97]),
  /- input_tr_string.cpp 45 -/ (.char, ⟨[], [], [.tr [95, 123, 125, 95, 95, 123, 125, 95, 95, 123, 125] [.int ⟨.int, true⟩ [] 0, .int ⟨.int, true⟩ [] 1, .int ⟨.int, true⟩ [] 2]], false⟩, [95, 48, 95, 95, 49, 95, 95, 50]),
  /- input_tr_string.cpp 46 -/ (.char, ⟨[], [], [.tr [123, 123, 123, 125, 95, 123, 123, 95, 123, 123, 123, 125, 95, 123, 123, 123, 125] [.int ⟨.int, true⟩ [] 0, .int ⟨.int, true⟩ [] 1, .int ⟨.int, true⟩ [] 2]], false⟩, [123, 48, 95, 123, 95, 123, 49, 95, 123, 50]),
  /- input_tr_string.cpp 47 -/ (.char, ⟨[], [], [.tr [123, 125, 95, 95, 123, 125, 95, 95, 123, 125] [.int ⟨.int, true⟩ [] 0, .int ⟨.int, true⟩ [] 1, .int ⟨.int, true⟩ [] 2]], false⟩, [48, 95, 95, 49, 95, 95, 50]),
  /- input_tr_string.cpp 48 -/ (.char, ⟨[], [], [.tr [123, 125, 95, 95, 123, 125, 95, 95, 123] [.int ⟨.int, true⟩ [] 0, .int ⟨.int, true⟩ [] 1, .int ⟨.int, true⟩ [] 2]], false⟩, [48, 95, 95, 49, 95, 95, 50]),
  /- input_tr_string.cpp 49 -/ (.char, ⟨[], [], [.tr [123, 125, 95, 95, 123, 125, 95, 95, 123, 97, 97, 97, 125] [.int ⟨.int, true⟩ [] 0, .int ⟨.int, true⟩ [] 1, .int ⟨.int, true⟩ [] 2]], false⟩, [48, 95, 95, 49, 95, 95, 50]),
  /- input_tr_string.cpp 50 -/ (.char, ⟨[], [], [.tr [123, 125, 95, 95, 123, 125, 95, 95, 123, 97, 97, 97] [.int ⟨.int, true⟩ [] 0, .int ⟨.int, true⟩ [] 1, .int ⟨.int, true⟩ [] 2]], false⟩, [48, 95, 95, 49, 95, 95, 50]),
  /- input_tr_string.cpp 51 -/ (.char, ⟨[], [], [.tr [123, 125, 95, 95, 123, 125, 95, 95, 123, 125, 95] [.int ⟨.int, true⟩ [] 0, .int ⟨.int, true⟩ [] 1, .int ⟨.int, true⟩ [] 2]], false⟩, [48, 95, 95, 49, 95, 95, 50, 95]),
  /- input_tr_string.cpp 52 -/ (.char, ⟨[], [], [.tr [123, 125, 95, 95, 123, 125, 95, 95, 123, 97, 97, 97, 125, 95] [.int ⟨.int, true⟩ [] 0, .int ⟨.int, true⟩ [] 1, .int ⟨.int, true⟩ [] 2]], false⟩, [48, 95, 95, 49, 95, 95, 50, 95]),
  /- input_tr_string.cpp 54 -/ (.char, ⟨[], [], [.tr [123, 125, 95, 95, 123, 125, 95, 95, 123, 125] [.int ⟨.int, true⟩ [] 0, .int ⟨.int, true⟩ [] 1]], false⟩, [48, 95, 95, 49, 95, 95, 239, 191, 189]),
  /- input_tr_string.cpp 55 -/ (.char, ⟨[], [], [.tr [123, 125, 95, 95, 123, 125, 95, 95, 123] [.int ⟨.int, true⟩ [] 0, .int ⟨.int, true⟩ [] 1]], false⟩, [48, 95, 95, 49, 95, 95, 239, 191, 189]),
  /- input_tr_string.cpp 56 -/ (.char, ⟨[], [], [.tr [123, 125, 95, 95, 123, 125, 95, 95, 123, 97, 97, 97, 125] [.int ⟨.int, true⟩ [] 0, .int ⟨.int, true⟩ [] 1]], false⟩, [48, 95, 95, 49, 95, 95, 239, 191, 189]),
  /- input_tr_string.cpp 57 -/ (.char, ⟨[], [], [.tr [123, 125, 95, 95, 123, 125, 95, 95, 123, 97, 97, 97] [.int ⟨.int, true⟩ [] 0, .int ⟨.int, true⟩ [] 1]], false⟩, [48, 95, 95, 49, 95, 95, 239, 191, 189]),
  /- input_tr_string.cpp 58 -/ (.char, ⟨[], [], [.tr [123, 125, 95, 95, 123, 125, 95, 95, 123, 125, 95] [.int ⟨.int, true⟩ [] 0, .int ⟨.int, true⟩ [] 1]], false⟩, [48, 95, 95, 49, 95, 95, 239, 191, 189, 95]),
  /- input_tr_string.cpp 59 -/ (.char, ⟨[], [], [.tr [123, 125, 95, 95, 123, 125, 95, 95, 123, 97, 97, 97, 125, 95] [.int ⟨.int, true⟩ [] 0, .int ⟨.int, true⟩ [] 1]], false⟩, [48, 95, 95, 49, 95, 95, 239, 191, 189, 95]),
  /- input_tr_string.cpp 61 -/ (.char, ⟨[], [], [.tr [123, 125, 95, 95, 123, 51, 125, 95, 95, 123, 125] [.int ⟨.int, true⟩ [] 0, .int ⟨.int, true⟩ [] 1, .int ⟨.int, true⟩ [] 2, .int ⟨.int, true⟩ [] 3]], false⟩, [48, 95, 95, 51, 95, 95, 49]),
  /- input_tr_string.cpp 62 -/ (.char, ⟨[], [], [.tr [123, 125, 95, 95, 123, 51, 125, 95, 95, 123] [.int ⟨.int, true⟩ [] 0, .int ⟨.int, true⟩ [] 1, .int ⟨.int, true⟩ [] 2, .int ⟨.int, true⟩ [] 3]], false⟩, [48, 95, 95, 51, 95, 95, 49]),
  /- input_tr_string.cpp 63 -/ (.char, ⟨[], [], [.tr [123, 125, 95, 95, 123, 51, 97, 97, 125, 95, 95, 123, 97, 97, 97, 125] [.int ⟨.int, true⟩ [] 0, .int ⟨.int, true⟩ [] 1, .int ⟨.int, true⟩ [] 2, .int ⟨.int, true⟩ [] 3]], false⟩, [48, 95, 95, 51, 95, 95, 49]),
  /- input_tr_string.cpp 64 -/ (.char, ⟨[], [], [.tr [123, 125, 95, 95, 123, 51, 125, 95, 95, 123, 97, 97, 97] [.int ⟨.int, true⟩ [] 0, .int ⟨.int, true⟩ [] 1, .int ⟨.int, true⟩ [] 2, .int ⟨.int, true⟩ [] 3]], false⟩, [48, 95, 95, 51, 95, 95, 49]),
  /- input_tr_string.cpp 65 -/ (.char, ⟨[], [], [.tr [123, 125, 95, 95, 123, 51, 125, 95, 95, 123, 125, 95] [.int ⟨.int, true⟩ [] 0, .int ⟨.int, true⟩ [] 1, .int ⟨.int, true⟩ [] 2, .int ⟨.int, true⟩ [] 3]], false⟩, [48, 95, 95, 51, 95, 95, 49, 95]),
  /- input_tr_string.cpp 66 -/ (.char, ⟨[], [], [.tr [123, 125, 95, 95, 123, 51, 97, 97, 125, 95, 95, 123, 97, 97, 97, 125, 95] [.int ⟨.int, true⟩ [] 0, .int ⟨.int, true⟩ [] 1, .int ⟨.int, true⟩ [] 2, .int ⟨.int, true⟩ [] 3]], false⟩, [48, 95, 95, 51, 95, 95, 49, 95]),
  /- input_tr_string.cpp 68 -/ (.char, ⟨[], [], [.tr [123, 125, 95, 95, 123, 49, 125, 95, 95, 123, 51, 125] [.int ⟨.int, true⟩ [] 0, .int ⟨.int, true⟩ [] 1, .int ⟨.int, true⟩ [] 2, .int ⟨.int, true⟩ [] 3]], false⟩, [48, 95, 95, 49, 95, 95, 51]),
  /- input_tr_string.cpp 69 -/ (.char, ⟨[], [], [.tr [123, 125, 95, 95, 123, 49, 97, 125, 95, 95, 123, 51] [.int ⟨.int, true⟩ [] 0, .int ⟨.int, true⟩ [] 1, .int ⟨.int, true⟩ [] 2, .int ⟨.int, true⟩ [] 3]], false⟩, [48, 95, 95, 49, 95, 95, 51]),
  /- input_tr_string.cpp 70 -/ (.char, ⟨[], [], [.tr [123, 125, 95, 95, 123, 49, 125, 95, 95, 123, 51, 97, 97, 97, 125] [.int ⟨.int, true⟩ [] 0, .int ⟨.int, true⟩ [] 1, .int ⟨.int, true⟩ [] 2, .int ⟨.int, true⟩ [] 3]], false⟩, [48, 95, 95, 49, 95, 95, 51]),
  /- input_tr_string.cpp 71 -/ (.char, ⟨[], [], [.tr [123, 125, 95, 95, 123, 49, 125, 95, 95, 123, 51, 97, 97, 97] [.int ⟨.int, true⟩ [] 0, .int ⟨.int, true⟩ [] 1, .int ⟨.int, true⟩ [] 2, .int ⟨.int, true⟩ [] 3]], false⟩, [48, 95, 95, 49, 95, 95, 51]),
  /- input_tr_string.cpp 72 -/ (.char, ⟨[], [], [.tr [123, 125, 95, 95, 123, 49, 125, 95, 95, 123, 51, 125, 95] [.int ⟨.int, true⟩ [] 0, .int ⟨.int, true⟩ [] 1, .int ⟨.int, true⟩ [] 2, .int ⟨.int, true⟩ [] 3]], false⟩, [48, 95, 95, 49, 95, 95, 51, 95]),
  /- input_tr_string.cpp 73 -/ (.char, ⟨[], [], [.tr [123, 125, 95, 95, 123, 49, 125, 95, 95, 123, 51, 97, 97, 97, 125, 95] [.int ⟨.int, true⟩ [] 0, .int ⟨.int, true⟩ [] 1, .int ⟨.int, true⟩ [] 2, .int ⟨.int, true⟩ [] 3]], false⟩, [48, 95, 95, 49, 95, 95, 51, 95]),
  /- input_tr_string.cpp 75 -/ (.char, ⟨[], [], [.tr [95, 123, 125, 95, 95, 123, 49, 48, 125, 95, 95] [.int ⟨.int, true⟩ [] 0, .int ⟨.int, true⟩ [] 1, .int ⟨.int, true⟩ [] 2, .int ⟨.int, true⟩ [] 3, .int ⟨.int, true⟩ [] 4, .int ⟨.int, true⟩ [] 5, .int ⟨.int, true⟩ [] 6, .int ⟨.int, true⟩ [] 7, .int ⟨.int, true⟩ [] 8, .int ⟨.int, true⟩ [] 9, .int ⟨.int, true⟩ [] 10]], false⟩, [95, 48, 95, 95, 49, 48, 95, 95]),
  /- input_tr_string.cpp 76 -/ (.char, ⟨[], [], [.tr [95, 123, 125, 95, 95, 123, 49, 48, 97, 97, 125, 95, 95] [.int ⟨.int, true⟩ [] 0, .int ⟨.int, true⟩ [] 1, .int ⟨.int, true⟩ [] 2, .int ⟨.int, true⟩ [] 3, .int ⟨.int, true⟩ [] 4, .int ⟨.int, true⟩ [] 5, .int ⟨.int, true⟩ [] 6, .int ⟨.int, true⟩ [] 7, .int ⟨.int, true⟩ [] 8, .int ⟨.int, true⟩ [] 9, .int ⟨.int, true⟩ [] 10]], false⟩, [95, 48, 95, 95, 49, 48, 95, 95]),
  /- input_tr_string.cpp 77 -/ (.char, ⟨[], [], [.tr [95, 123, 125, 95, 95, 123, 49, 48, 125, 95, 95] [.int ⟨.int, true⟩ [] 0, .int ⟨.int, true⟩ [] 1, .int ⟨.int, true⟩ [] 2, .int ⟨.int, true⟩ [] 3, .int ⟨.int, true⟩ [] 4, .int ⟨.int, true⟩ [] 5, .int ⟨.int, true⟩ [] 6, .int ⟨.int, true⟩ [] 7, .int ⟨.int, true⟩ [] 8, .int ⟨.int, true⟩ [] 9, .int ⟨.int, true⟩ [] 10]], false⟩, [95, 48, 95, 95, 49, 48, 95, 95]),
  /- input_tr_string.cpp 78 -/ (.char, ⟨[], [], [.tr [95, 123, 125, 95, 95, 123, 49, 48] [.int ⟨.int, true⟩ [] 0, .int ⟨.int, true⟩ [] 1, .int ⟨.int, true⟩ [] 2, .int ⟨.int, true⟩ [] 3, .int ⟨.int, true⟩ [] 4, .int ⟨.int, true⟩ [] 5, .int ⟨.int, true⟩ [] 6, .int ⟨.int, true⟩ [] 7, .int ⟨.int, true⟩ [] 8, .int ⟨.int, true⟩ [] 9, .int ⟨.int, true⟩ [] 10]], false⟩, [95, 48, 95, 95, 49, 48])] = true := by decide +kernel

set_option maxRecDepth 100000 in
example : allPrint [
  /- input_tr_string.cpp 79 -/ (.char, ⟨[], [], [.tr [95, 123, 125, 95, 95, 123, 49, 49] [.int ⟨.int, true⟩ [] 0, .int ⟨.int, true⟩ [] 1, .int ⟨.int, true⟩ [] 2, .int ⟨.int, true⟩ [] 3, .int ⟨.int, true⟩ [] 4, .int ⟨.int, true⟩ [] 5, .int ⟨.int, true⟩ [] 6, .int ⟨.int, true⟩ [] 7, .int ⟨.int, true⟩ [] 8, .int ⟨.int, true⟩ [] 9, .int ⟨.int, true⟩ [] 10]], false⟩, [95, 48, 95, 95, 239, 191, 189]),
  /- input_tr_string.cpp 80 -/ (.char, ⟨[], [], [.tr [95, 123, 125, 95, 95, 123, 49, 48, 48] [.int ⟨.int, true⟩ [] 0, .int ⟨.int, true⟩ [] 1, .int ⟨.int, true⟩ [] 2, .int ⟨.int, true⟩ [] 3, .int ⟨.int, true⟩ [] 4, .int ⟨.int, true⟩ [] 5, .int ⟨.int, true⟩ [] 6, .int ⟨.int, true⟩ [] 7, .int ⟨.int, true⟩ [] 8, .int ⟨.int, true⟩ [] 9, .int ⟨.int, true⟩ [] 10]], false⟩, [95, 48, 95, 95, 239, 191, 189]),
  /- input_tr_string.cpp 83 -/ (.char, ⟨[], [], [.tr [123, 125, 95, 95, 123, 45, 125] [.int ⟨.int, true⟩ [] 0]], false⟩, [48, 95, 95]),
  /- input_tr_string.cpp 84 -/ (.char, ⟨[], [], [.tr [123, 125, 95, 95, 123, 45] [.int ⟨.int, true⟩ [] 0]], false⟩, [48, 95, 95]),
  /- input_tr_string.cpp 85 -/ (.char, ⟨[], [], [.tr [123, 125, 95, 95, 123, 45, 97, 97, 97] [.int ⟨.int, true⟩ [] 0]], false⟩, [48, 95, 95]),
  /- input_tr_string.cpp 86 -/ (.char, ⟨[], [], [.tr [123, 125, 95, 95, 123, 45, 97, 97, 97, 125] [.int ⟨.int, true⟩ [] 0]], false⟩, [48, 95, 95]),
  /- input_tr_string.cpp 88 -/ (.char, ⟨[], [], [.tr [123, 125, 95, 95, 123, 45, 125, 123, 125] [.int ⟨.int, true⟩ [] 0, .int ⟨.int, true⟩ [] 1]], false⟩, [48, 95, 95, 49]),
  /- input_tr_string.cpp 89 -/ (.char, ⟨[], [], [.tr [123, 125, 95, 95, 123, 45, 97, 97, 97, 125, 123, 125] [.int ⟨.int, true⟩ [] 0, .int ⟨.int, true⟩ [] 1]], false⟩, [48, 95, 95, 49]),
  /- input_tr_string.cpp 90 -/ (.char, ⟨[], [], [.tr [123, 125, 95, 95, 123, 45, 125, 126, 123, 125] [.int ⟨.int, true⟩ [] 0, .int ⟨.int, true⟩ [] 1]], false⟩, [48, 95, 95, 126, 49]),
  /- input_tr_string.cpp 91 -/ (.char, ⟨[], [], [.tr [123, 125, 95, 95, 123, 45, 97, 97, 97, 125, 126, 123, 125] [.int ⟨.int, true⟩ [] 0, .int ⟨.int, true⟩ [] 1]], false⟩, [48, 95, 95, 126, 49]),
  /- input_tr_string.cpp 93 -/ (.char, ⟨[], [], [.tr [123, 45, 125, 95, 95, 123, 125] [.int ⟨.int, true⟩ [] 0]], false⟩, [95, 95, 48]),
  /- input_tr_string.cpp 94 -/ (.char, ⟨[], [], [.tr [45, 123, 45, 125, 95, 95, 123, 125] [.int ⟨.int, true⟩ [] 0]], false⟩, [45, 95, 95, 48]),
  /- input_tr_string.cpp 95 -/ (.char, ⟨[], [], [.tr [123, 123, 123, 45, 125, 95, 95, 123, 125] [.int ⟨.int, true⟩ [] 0]], false⟩, [123, 95, 95, 48]),
  /- input_tr_string.cpp 99 -/ (.char, ⟨[], [], [.tr [123, 123, 125, 95, 123, 123, 123, 125, 125, 95, 95, 123, 123] [.int ⟨.int, true⟩ [] 0]], false⟩, [123, 125, 95, 123, 48, 125, 95, 95, 123]),
  /- input_tr_string.cpp 100 -/ (.char16, ⟨[], [], [.tr [123, 123, 125, 95, 123, 123, 123, 125, 125, 95, 95, 123, 123] [.int ⟨.int, true⟩ [] 0]], false⟩, [123, 125, 95, 123, 48, 125, 95, 95, 123]),
  /- input_tr_string.cpp 103 -/ (.char, ⟨[], [], [.tr [123, 125, 32, 123, 51, 125, 32, 123, 52, 125, 32, 123, 53, 125, 32, 123, 49, 125] [.int ⟨.int, true⟩ [] 0, .int ⟨.int, true⟩ [] 1, .int ⟨.int, true⟩ [] 2, .int ⟨.int, true⟩ [] 3]], false⟩, [48, 32, 51, 32, 239, 191, 189, 32, 239, 191, 189, 32, 49]),
  /- input_tr_string.cpp 104 -/ (.char, ⟨[], [], [.tr [123, 125, 32, 123, 51, 125, 32, 123, 52, 97, 97, 125, 32, 123, 53, 125] [.int ⟨.int, true⟩ [] 0, .int ⟨.int, true⟩ [] 1, .int ⟨.int, true⟩ [] 2, .int ⟨.int, true⟩ [] 3]], false⟩, [48, 32, 51, 32, 239, 191, 189, 32, 239, 191, 189]),
  /- input_tr_string.cpp 105 -/ (.char, ⟨[], [], [.tr [123, 125, 32, 123, 51, 125, 32, 123, 49, 49, 125, 32, 123, 53] [.int ⟨.int, true⟩ [] 0, .int ⟨.int, true⟩ [] 1, .int ⟨.int, true⟩ [] 2, .int ⟨.int, true⟩ [] 3]], false⟩, [48, 32, 51, 32, 239, 191, 189, 32, 239, 191, 189]),
  /- input_tr_string.cpp 106 -/ (.char, ⟨[], [], [.tr [123, 125, 32, 123, 51, 125, 32, 123, 49, 49, 49, 125, 32, 123, 53, 32] [.int ⟨.int, true⟩ [] 0, .int ⟨.int, true⟩ [] 1, .int ⟨.int, true⟩ [] 2, .int ⟨.int, true⟩ [] 3]], false⟩, [48, 32, 51, 32, 239, 191, 189, 32, 239, 191, 189]),
  /- input_tr_string.cpp 107 -/ (.char, ⟨[], [], [.tr [123, 125, 32, 123, 51, 125, 32, 123, 52, 125] [.int ⟨.int, true⟩ [] 0, .int ⟨.int, true⟩ [] 1, .int ⟨.int, true⟩ [] 2, .int ⟨.int, true⟩ [] 3]], false⟩, [48, 32, 51, 32, 239, 191, 189]),
  /- input_tr_string.cpp 108 -/ (.char, ⟨[], [], [.tr [123, 125, 32, 123, 51, 125, 32, 123, 52] [.int ⟨.int, true⟩ [] 0, .int ⟨.int, true⟩ [] 1, .int ⟨.int, true⟩ [] 2, .int ⟨.int, true⟩ [] 3]], false⟩, [48, 32, 51, 32, 239, 191, 189]),
  /- input_tr_string.cpp 109 -/ (.char, ⟨[], [], [.tr [123, 125, 32, 123, 125, 32, 123, 125, 32, 123, 125, 95] [.int ⟨.int, true⟩ [] 0, .int ⟨.int, true⟩ [] 1, .int ⟨.int, true⟩ [] 2]], false⟩, [48, 32, 49, 32, 50, 32, 239, 191, 189, 95]),
  /- input_tr_string.cpp 110 -/ (.char, ⟨[], [], [.tr [123, 125, 32, 123, 125, 32, 123, 125, 32, 123, 125] [.int ⟨.int, true⟩ [] 0, .int ⟨.int, true⟩ [] 1, .int ⟨.int, true⟩ [] 2]], false⟩, [48, 32, 49, 32, 50, 32, 239, 191, 189]),
  /- input_tr_string.cpp 111 -/ (.char, ⟨[], [], [.tr [123, 125, 32, 123, 125, 32, 123, 125, 32, 123] [.int ⟨.int, true⟩ [] 0, .int ⟨.int, true⟩ [] 1, .int ⟨.int, true⟩ [] 2]], false⟩, [48, 32, 49, 32, 50, 32, 239, 191, 189]),
  /- input_tr_string.cpp 112 -/ (.char, ⟨[], [], [.tr [123, 125, 32, 123, 125, 32, 123, 125, 32, 123, 97, 97, 125, 95] [.int ⟨.int, true⟩ [] 0, .int ⟨.int, true⟩ [] 1, .int ⟨.int, true⟩ [] 2]], false⟩, [48, 32, 49, 32, 50, 32, 239, 191, 189, 95]),
  /- input_tr_string.cpp 113 -/ (.char, ⟨[], [], [.tr [123, 125, 32, 123, 125, 32, 123, 125, 32, 123, 97, 97, 125] [.int ⟨.int, true⟩ [] 0, .int ⟨.int, true⟩ [] 1, .int ⟨.int, true⟩ [] 2]], false⟩, [48, 32, 49, 32, 50, 32, 239, 191, 189]),
  /- input_tr_string.cpp 114 -/ (.char, ⟨[], [], [.tr [123, 125, 32, 123, 125, 32, 123, 125, 32, 123, 97, 97] [.int ⟨.int, true⟩ [] 0, .int ⟨.int, true⟩ [] 1, .int ⟨.int, true⟩ [] 2]], false⟩, [48, 32, 49, 32, 50, 32, 239, 191, 189]),
  /- input_tr_string.cpp 115 -/ (.char, ⟨[], [], [.tr [95, 123, 125, 95, 95] []], false⟩, [95, 239, 191, 189, 95, 95]),
  /- input_tr_string.cpp 116 -/ (.char, ⟨[], [], [.tr [123, 125, 95, 95] []], false⟩, [239, 191, 189, 95, 95]),
  /- input_tr_string.cpp 117 -/ (.char, ⟨[], [], [.tr [95, 95, 123, 125] []], false⟩, [95, 95, 239, 191, 189]),
  /- input_tr_string.cpp 118 -/ (.char, ⟨[], [], [.tr [123, 97, 97, 125] []], false⟩, [239, 191, 189]),
  /- input_tr_string.cpp 119 -/ (.char, ⟨[], [], [.tr [123, 125] []], false⟩, [239, 191, 189]),
  /- input_tr_string.cpp 120 -/ (.char, ⟨[], [], [.tr [123, 48, 125] []], false⟩, [239, 191, 189]),
  /- input_tr_string.cpp 121 -/ (.char, ⟨[], [], [.tr [123, 49, 125] []], false⟩, [239, 191, 189]),
  /- input_tr_string.cpp 122 -/ (.char, ⟨[], [], [.tr [123, 48, 32, 97, 97, 125] []], false⟩, [239, 191, 189]),
  /- input_tr_string.cpp 123 -/ (.char, ⟨[], [], [.tr [123, 49, 32, 97, 97, 125] []], false⟩, [239, 191, 189]),
  /- input_tr_string.cpp 124 -/ (.char, ⟨[], [], [.tr [123] []], false⟩, [239, 191, 189]),
  /- input_tr_string.cpp 125 -/ (.char, ⟨[], [], [.tr [123, 97, 97, 97] []], false⟩, [239, 191, 189]),
  /- input_tr_string.cpp 128 -/ (.char16, ⟨[], [], [.tr [123, 125, 32, 123, 51, 125, 32, 123, 52, 125, 32, 123, 53, 125, 32, 123, 49, 125] [.int ⟨.int, true⟩ [] 0, .int ⟨.int, true⟩ [] 1, .int ⟨.int, true⟩ [] 2, .int ⟨.int, true⟩ [] 3]], false⟩, [48, 32, 51, 32, 65533, 32, 65533, 32, 49]),
  /- input_tr_string.cpp 129 -/ (.char16, ⟨[], [], [.tr [123, 125, 32, 123, 51, 125, 32, 123, 52, 97, 97, 125, 32, 123, 53, 125] [.int ⟨.int, true⟩ [] 0, .int ⟨.int, true⟩ [] 1, .int ⟨.int, true⟩ [] 2, .int ⟨.int, true⟩ [] 3]], false⟩, [48, 32, 51, 32, 65533, 32, 65533])] = true := by decide +kernel

set_option maxRecDepth 100000 in
example : allPrint [
  /- input_tr_string.cpp 130 -/ (.char16, ⟨[], [], [.tr [123, 125, 32, 123, 51, 125, 32, 123, 49, 49, 125, 32, 123, 53] [.int ⟨.int, true⟩ [] 0, .int ⟨.int, true⟩ [] 1, .int ⟨.int, true⟩ [] 2, .int ⟨.int, true⟩ [] 3]], false⟩, [48, 32, 51, 32, 65533, 32, 65533]),
  /- input_tr_string.cpp 131 -/ (.char16, ⟨[], [], [.tr [123, 125, 32, 123, 51, 125, 32, 123, 49, 49, 49, 125, 32, 123, 53, 32] [.int ⟨.int, true⟩ [] 0, .int ⟨.int, true⟩ [] 1, .int ⟨.int, true⟩ [] 2, .int ⟨.int, true⟩ [] 3]], false⟩, [48, 32, 51, 32, 65533, 32, 65533]),
  /- input_tr_string.cpp 132 -/ (.char16, ⟨[], [], [.tr [123, 125, 32, 123, 51, 125, 32, 123, 52, 125] [.int ⟨.int, true⟩ [] 0, .int ⟨.int, true⟩ [] 1, .int ⟨.int, true⟩ [] 2, .int ⟨.int, true⟩ [] 3]], false⟩, [48, 32, 51, 32, 65533]),
  /- input_tr_string.cpp 133 -/ (.char16, ⟨[], [], [.tr [123, 125, 32, 123, 51, 125, 32, 123, 52] [.int ⟨.int, true⟩ [] 0, .int ⟨.int, true⟩ [] 1, .int ⟨.int, true⟩ [] 2, .int ⟨.int, true⟩ [] 3]], false⟩, [48, 32, 51, 32, 65533]),
  /- input_tr_string.cpp 134 -/ (.char16, ⟨[], [], [.tr [123, 125, 32, 123, 125, 32, 123, 125, 32, 123, 125, 95] [.int ⟨.int, true⟩ [] 0, .int ⟨.int, true⟩ [] 1, .int ⟨.int, true⟩ [] 2]], false⟩, [48, 32, 49, 32, 50, 32, 65533, 95]),
  /- input_tr_string.cpp 135 -/ (.char16, ⟨[], [], [.tr [123, 125, 32, 123, 125, 32, 123, 125, 32, 123, 125] [.int ⟨.int, true⟩ [] 0, .int ⟨.int, true⟩ [] 1, .int ⟨.int, true⟩ [] 2]], false⟩, [48, 32, 49, 32, 50, 32, 65533]),
  /- input_tr_string.cpp 136 -/ (.char16, ⟨[], [], [.tr [123, 125, 32, 123, 125, 32, 123, 125, 32, 123] [.int ⟨.int, true⟩ [] 0, .int ⟨.int, true⟩ [] 1, .int ⟨.int, true⟩ [] 2]], false⟩, [48, 32, 49, 32, 50, 32, 65533]),
  /- input_tr_string.cpp 137 -/ (.char16, ⟨[], [], [.tr [123, 125, 32, 123, 125, 32, 123, 125, 32, 123, 97, 97, 125, 95] [.int ⟨.int, true⟩ [] 0, .int ⟨.int, true⟩ [] 1, .int ⟨.int, true⟩ [] 2]], false⟩, [48, 32, 49, 32, 50, 32, 65533, 95]),
  /- input_tr_string.cpp 138 -/ (.char16, ⟨[], [], [.tr [123, 125, 32, 123, 125, 32, 123, 125, 32, 123, 97, 97, 125] [.int ⟨.int, true⟩ [] 0, .int ⟨.int, true⟩ [] 1, .int ⟨.int, true⟩ [] 2]], false⟩, [48, 32, 49, 32, 50, 32, 65533]),
  /- input_tr_string.cpp 139 -/ (.char16, ⟨[], [], [.tr [123, 125, 32, 123, 125, 32, 123, 125, 32, 123, 97, 97] [.int ⟨.int, true⟩ [] 0, .int ⟨.int, true⟩ [] 1, .int ⟨.int, true⟩ [] 2]], false⟩, [48, 32, 49, 32, 50, 32, 65533]),
  /- input_tr_string.cpp 140 -/ (.char16, ⟨[], [], [.tr [95, 123, 125, 95, 95] []], false⟩, [95, 65533, 95, 95]),
  /- input_tr_string.cpp 141 -/ (.char16, ⟨[], [], [.tr [123, 125, 95, 95] []], false⟩, [65533, 95, 95]),
  /- input_tr_string.cpp 142 -/ (.char16, ⟨[], [], [.tr [95, 95, 123, 125] []], false⟩, [95, 95, 65533]),
  /- input_tr_string.cpp 143 -/ (.char16, ⟨[], [], [.tr [123, 97, 97, 125] []], false⟩, [65533]),
  /- input_tr_string.cpp 144 -/ (.char16, ⟨[], [], [.tr [123, 125] []], false⟩, [65533]),
  /- input_tr_string.cpp 145 -/ (.char16, ⟨[], [], [.tr [123, 48, 125] []], false⟩, [65533]),
  /- input_tr_string.cpp 146 -/ (.char16, ⟨[], [], [.tr [123, 49, 125] []], false⟩, [65533]),
  /- input_tr_string.cpp 147 -/ (.char16, ⟨[], [], [.tr [123, 48, 32, 97, 97, 125] []], false⟩, [65533]),
  /- input_tr_string.cpp 148 -/ (.char16, ⟨[], [], [.tr [123, 49, 32, 97, 97, 125] []], false⟩, [65533]),
  /- input_tr_string.cpp 149 -/ (.char16, ⟨[], [], [.tr [123] []], false⟩, [65533]),
  /- input_tr_string.cpp 150 -/ (.char16, ⟨[], [], [.tr [123, 97, 97, 97] []], false⟩, [65533]),
  /- input_tr_string.cpp 156 -/ (.char, ⟨[[]], [], [.tr [123, 32, 125, 95, 95, 123, 49, 48, 125, 45, 45, 123, 125, 61, 61, 123, 125, 46, 46, 123, 125, 58, 58, 123, 125, 126, 126] [.int ⟨.int, true⟩ [] 0, .int ⟨.int, true⟩ [] 1, .int ⟨.int, true⟩ [] 2, .int ⟨.int, true⟩ [] 3]], false⟩, [48, 95, 95, 239, 191, 189, 45, 45, 49, 61, 61, 50, 46, 46, 51, 58, 58, 239, 191, 189, 126, 126]),
  /- input_tr_string.cpp 167 -/ (.char, ⟨[[]], [], [.tr [123, 32, 125, 95, 95, 123, 49, 48, 125, 45, 45, 123, 125, 61, 61, 123, 125, 46, 46, 123, 125, 58, 58, 123, 98, 108, 97, 104, 125, 126, 126] [.int ⟨.int, true⟩ [] 0, .int ⟨.int, true⟩ [] 1, .int ⟨.int, true⟩ [] 2, .int ⟨.int, true⟩ [] 3]], false⟩, [48, 95, 95, 239, 191, 189, 45, 45, 49, 61, 61, 50, 46, 46, 51, 58, 58, 239, 191, 189, 126, 126]),
  /- input_tr_string.cpp 178 -/ (.char16, ⟨[[]], [], [.tr [123, 32, 125, 95, 95, 123, 50, 125, 45, 45, 123, 125, 61, 61, 123, 125, 46, 46, 123, 125, 58, 58, 123] [.int ⟨.int, true⟩ [] 0, .int ⟨.int, true⟩ [] 1, .int ⟨.int, true⟩ [] 2, .int ⟨.int, true⟩ [] 3]], false⟩, [48, 95, 95, 50, 45, 45, 49, 61, 61, 50, 46, 46, 51, 58, 58, 65533]),
  /- numpunct.cpp 75 -/ (.char, ⟨[[.facet (.numpunct 10) (.numpunct 10 ⟨Numpunct.ctor2 [4, 3, 2], 46, 46⟩)]], [], [.int ⟨.longLong, true⟩ [.punct] 100000000000], false⟩, [49, 46, 48, 48, 46, 48, 48, 46, 48, 48, 48, 46, 48, 48, 48, 48]),
  /- numpunct.cpp 79 -/ (.char, ⟨[[.facet (.numpunct 10) (.numpunct 10 ⟨Numpunct.ctor2 [3], 46, 44⟩)]], [], [.int ⟨.longLong, true⟩ [.punct] 100000000000], false⟩, [49, 48, 48, 44, 48, 48, 48, 44, 48, 48, 48, 44, 48, 48, 48]),
  /- numpunct.cpp 83 -/ (.char, ⟨[[.facet (.numpunct 10) (.numpunct 10 ⟨Numpunct.emptyWord, 46, 44⟩)]], [], [.int ⟨.longLong, false⟩ [.punct] 10000000000000000000], false⟩, [49, 48, 48, 48, 48, 48, 48, 48, 48, 48, 48, 48, 48, 48, 48, 48, 48, 48, 48, 48]),
  /- numpunct.cpp 90 -/ (.char, ⟨[[.facet (.numpunct 10) (.numpunct 10 ⟨Numpunct.ctor2 [1, 2, 3, -1], 46, 44⟩)]], [], [.int ⟨.longLong, false⟩ [.punct] 10000000000000000000], false⟩, [49, 48, 48, 48, 48, 48, 48, 48, 48, 48, 48, 48, 48, 48, 44, 48, 48, 48, 44, 48, 48, 44, 48]),
  /- numpunct.cpp 91 -/ (.char, ⟨[[.facet (.numpunct 10) (.numpunct 10 ⟨Numpunct.ctor2 [1, 2, 3, -1], 46, 44⟩)]], [], [.int ⟨.int, true⟩ [] 0], false⟩, [48]),
  /- numpunct.cpp 134 -/ (.char, ⟨[[.facet (.numpunct 10) (.numpunct 10 ⟨Numpunct.ctor2 [1, 2, 3], 46, 44⟩)]], [], [.int ⟨.longLong, false⟩ [.punct] 10000000000000000000], false⟩, [49, 48, 44, 48, 48, 48, 44, 48, 48, 48, 44, 48, 48, 48, 44, 48, 48, 48, 44, 48, 48, 48, 44, 48, 48, 44, 48]),
  /- numpunct.cpp 135 -/ (.char, ⟨[[.facet (.numpunct 10) (.numpunct 10 ⟨Numpunct.ctor2 [1, 2, 3], 46, 44⟩)]], [], [.int ⟨.int, true⟩ [] 0], false⟩, [48]),
  /- numpunct.cpp 174 -/ (.char, ⟨[[.facet (.numpunct 10) (.numpunct 10 ⟨Numpunct.ctor2 [-1], 46, 44⟩)]], [], [.int ⟨.longLong, false⟩ [] 10000000000000000000], false⟩, [49, 48, 48, 48, 48, 48, 48, 48, 48, 48, 48, 48, 48, 48, 48, 48, 48, 48, 48, 48]),
  /- numpunct.cpp 175 -/ (.char, ⟨[[.facet (.numpunct 10) (.numpunct 10 ⟨Numpunct.ctor2 [-1], 46, 44⟩)]], [], [.int ⟨.int, true⟩ [] 0], false⟩, [48]),
  /- numpunct.cpp 185 -/ (.char, ⟨[[.facet (.numpunct 10) (.numpunct 10 ⟨Numpunct.ctor2 [15, 2], 46, 44⟩)]], [], [.int ⟨.longLong, false⟩ [.punct] 10000000000000000000], false⟩, [49, 44, 48, 48, 44, 48, 48, 44, 48, 48, 48, 48, 48, 48, 48, 48, 48, 48, 48, 48, 48, 48, 48]),
  /- numpunct.cpp 186 -/ (.char, ⟨[[.facet (.numpunct 10) (.numpunct 10 ⟨Numpunct.ctor2 [15, 2], 46, 44⟩)]], [], [.int ⟨.long true, true⟩ [] 100000000000000], false⟩, [49, 48, 48, 48, 48, 48, 48, 48, 48, 48, 48, 48, 48, 48, 48]),
  /- numpunct.cpp 187 -/ (.char, ⟨[[.facet (.numpunct 10) (.numpunct 10 ⟨Numpunct.ctor2 [15, 2], 46, 44⟩)]], [], [.int ⟨.int, true⟩ [] 0], false⟩, [48]),
  /- input_facets_pack.cpp 18 -/ (.char, ⟨[[.facet (.numpunct 10) (.numpunct 10 ⟨Numpunct.ctor2 [1], 46, 44⟩)]], [], [.int ⟨.int, true⟩ [.punct] 10000, .rawChr .char 32, .int ⟨.int, true⟩ [.hex, .punct] 65536, .rawChr .char 32, .int ⟨.int, true⟩ [.oct, .punct] 262144, .rawChr .char 32, .inner [.facet (.numpunct 10) (.numpunct 10 ⟨Numpunct.ctor2 [3], 46, 44⟩), .facet (.numpunct 16) (.numpunct 16 ⟨Numpunct.ctor2 [4], 46, 39⟩), .facet (.numpunct 8) (.numpunct 8 ⟨Numpunct.ctor2 [6], 46, 39⟩)] [.int ⟨.int, true⟩ [.punct] 10000, .rawChr .char 32, .int ⟨.int, true⟩ [.hex, .punct] 65536, .rawChr .char 32, .int ⟨.int, true⟩ [.oct, .punct] 262144, .rawChr .char 32, .inner [.facet (.numpunct 10) (.numpunct 10 ⟨Numpunct.ctor2 [3], 46, 46⟩), .facet (.numpunct 16) (.numpunct 16 ⟨Numpunct.ctor2 [2], 46, 94⟩)] [.int ⟨.int, true⟩ [.punct] 10000, .rawChr .char 32, .int ⟨.int, true⟩ [.hex, .punct] 65536, .rawChr .char 32, .int ⟨.int, true⟩ [.oct, .punct] 262144]]], false⟩, [49, 44, 48, 44, 48, 44, 48, 44, 48, 32, 49, 48, 48, 48, 48, 32, 49, 48, 48, 48, 48, 48, 48, 32, 49, 48, 44, 48, 48, 48, 32, 49, 39, 48, 48, 48, 48, 32, 49, 39, 48, 48, 48, 48, 48, 48, 32, 49, 48, 46, 48, 48, 48, 32, 49, 94, 48, 48, 94, 48, 48, 32, 49, 39, 48, 48, 48, 48, 48, 48]),
  /- input_facets_pack.cpp 41 -/ (.char, ⟨[[.facet (.numpunct 10) (.numpunct 10 ⟨Numpunct.ctor2 [1], 46, 44⟩)]], [], [.alignedJoin ⟨42, .right, 3276800⟩ [.int ⟨.int, true⟩ [.punct] 10000, .rawChr .char 32, .int ⟨.int, true⟩ [.hex, .punct] 65536, .rawChr .char 32, .int ⟨.int, true⟩ [.oct, .punct] 262144, .rawChr .char 32, .inner [.facet (.numpunct 10) (.numpunct 10 ⟨Numpunct.ctor2 [3], 46, 44⟩), .facet (.numpunct 16) (.numpunct 16 ⟨Numpunct.ctor2 [4], 46, 39⟩), .facet (.numpunct 8) (.numpunct 8 ⟨Numpunct.ctor2 [6], 46, 39⟩)] [.int ⟨.int, true⟩ [.punct] 10000, .rawChr .char 32, .int ⟨.int, true⟩ [.hex, .punct] 65536, .rawChr .char 32, .int ⟨.int, true⟩ [.oct, .punct] 262144]]], false⟩, [42, 42, 42, 42, 49, 44, 48, 44, 48, 44, 48, 44, 48, 32, 49, 48, 48, 48, 48, 32, 49, 48, 48, 48, 48, 48, 48, 32, 49, 48, 44, 48, 48, 48, 32, 49, 39, 48, 48, 48, 48, 32, 49, 39, 48, 48, 48, 48, 48, 48]),
  /- utf8_to_utf16.cpp 147 -/ (.char16, ⟨[], [], [.str .char [.sani none, .align (.right 65536)] []], false⟩, [32]),
  /- utf8_to_utf16.cpp 148 -/ (.char16, ⟨[], [], [.str .char [.sani none, .align (.right 262144)] [97, 98, 99]], false⟩, [32, 97, 98, 99])] = true := by decide +kernel

set_option maxRecDepth 100000 in
example : allPrint [
  /- utf8_to_utf16.cpp 149 -/ (.char16, ⟨[], [], [.str .char [.sani none, .align (.right 524288)] [97, 98, 194, 128, 224, 160, 128, 237, 159, 191, 240, 144, 128, 128, 244, 143, 191, 191]], false⟩, [32, 97, 98, 128, 2048, 55295, 55296, 56320, 56319, 57343]),
  /- utf8_to_utf16.cpp 1101 -/ (.char16, ⟨[[]], [], [.str .char [.sani none] [237, 160, 128]], false⟩, [65533, 65533, 65533]),
  /- utf8_to_utf32.cpp 61 -/ (.char32, ⟨[], [], [.str .char [.unchecked none] [240, 144, 128, 128]], false⟩, [65536]),
  /- utf8_to_utf32.cpp 63 -/ (.char32, ⟨[], [], [.str .char [.unchecked none, .align (.right 65536)] []], false⟩, [32]),
  /- utf8_to_utf32.cpp 64 -/ (.char32, ⟨[], [], [.str .char [.unchecked none] [244, 143, 191, 191]], false⟩, [1114111]),
  /- utf8_to_utf32.cpp 66 -/ (.char32, ⟨[], [], [.str .char [.unchecked none, .align (.right 262144)] [97, 98, 99]], false⟩, [32, 97, 98, 99]),
  /- utf8_to_utf32.cpp 67 -/ (.char32, ⟨[], [], [.str .char [.unchecked none, .align (.right 524288)] [97, 98, 194, 128, 224, 160, 128, 237, 159, 191, 240, 144, 128, 128, 244, 143, 191, 191]], false⟩, [32, 97, 98, 128, 2048, 55295, 65536, 1114111]),
  /- utf8_to_utf32.cpp 156 -/ (.char32, ⟨[], [], [.str .char [.sani none] [240, 144, 128, 128]], false⟩, [65536]),
  /- utf8_to_utf32.cpp 158 -/ (.char32, ⟨[], [], [.str .char [.sani none, .align (.right 65536)] []], false⟩, [32]),
  /- utf8_to_utf32.cpp 159 -/ (.char32, ⟨[], [], [.str .char [.sani none] [244, 143, 191, 191]], false⟩, [1114111]),
  /- utf8_to_utf32.cpp 161 -/ (.char32, ⟨[], [], [.str .char [.sani none, .align (.right 262144)] [97, 98, 99]], false⟩, [32, 97, 98, 99]),
  /- utf8_to_utf32.cpp 162 -/ (.char32, ⟨[], [], [.str .char [.sani none, .align (.right 524288)] [97, 98, 194, 128, 224, 160, 128, 237, 159, 191, 240, 144, 128, 128, 244, 143, 191, 191]], false⟩, [32, 97, 98, 128, 2048, 55295, 65536, 1114111]),
  /- utf8_to_utf32.cpp 1087 -/ (.char32, ⟨[[]], [], [.str .char [.sani none] [237, 160, 128]], false⟩, [65533, 65533, 65533]),
  /- utf8.cpp 223 -/ (.char, ⟨[], [], [.str .char [.sani none, .align (.right 65536)] []], false⟩, [32]),
  /- utf8.cpp 224 -/ (.char, ⟨[], [], [.str .char [.sani none, .align (.right 262144)] [97, 98, 99]], false⟩, [32, 97, 98, 99]),
  /- utf8.cpp 225 -/ (.char, ⟨[], [], [.str .char [.sani none, .align (.right 524288)] [97, 98, 194, 128, 224, 160, 128, 237, 159, 191, 238, 128, 128, 240, 144, 128, 128, 244, 143, 191, 191]], false⟩, [97, 98, 194, 128, 224, 160, 128, 237, 159, 191, 238, 128, 128, 240, 144, 128, 128, 244, 143, 191, 191]),
  /- utf8.cpp 1205 -/ (.char, ⟨[[]], [], [.str .char [.sani none] [237, 160, 128]], false⟩, [239, 191, 189, 239, 191, 189, 239, 191, 189]),
  /- utf16.cpp 424 -/ (.char16, ⟨[], [], [.str .char16 [.sani none, .align (.right 262144)] [95, 55296, 95]], false⟩, [32, 95, 65533, 95]),
  /- utf16.cpp 456 -/ (.char16, ⟨[[]], [], [.str .char16 [.sani none] [57343, 55296]], false⟩, [65533, 65533]),
  /- utf32.cpp 406 -/ (.char32, ⟨[[]], [], [.str .char32 [.sani none] [55296, 57343, 1114112]], false⟩, [65533, 65533, 65533]),
  /- utf16_to_utf8.cpp 752 -/ (.char, ⟨[[]], [], [.str .char16 [.sani none] [57343, 55296]], false⟩, [239, 191, 189, 239, 191, 189]),
  /- utf16_to_utf32.cpp 565 -/ (.char32, ⟨[[]], [], [.str .char16 [.sani none] [57343, 55296]], false⟩, [65533, 65533]),
  /- utf32_to_utf8.cpp 80 -/ (.char, ⟨[], [], [.str .char32 [.unchecked none, .align (.right 524288)] [97, 98, 128, 2048, 55295, 65536, 1114111]], false⟩, [32, 97, 98, 194, 128, 224, 160, 128, 237, 159, 191, 240, 144, 128, 128, 244, 143, 191, 191]),
  /- utf32_to_utf8.cpp 83 -/ (.char, ⟨[], [], [.str .char32 [.unchecked none] [1114111]], false⟩, [244, 143, 191, 191]),
  /- utf32_to_utf8.cpp 209 -/ (.char, ⟨[], [], [.str .char32 [.sani none, .align (.right 524288)] [97, 98, 128, 2048, 55295, 65536, 1114111]], false⟩, [32, 97, 98, 194, 128, 224, 160, 128, 237, 159, 191, 240, 144, 128, 128, 244, 143, 191, 191]),
  /- utf32_to_utf8.cpp 212 -/ (.char, ⟨[], [], [.str .char32 [.sani none] [1114111]], false⟩, [244, 143, 191, 191]),
  /- utf32_to_utf8.cpp 526 -/ (.char, ⟨[[]], [], [.str .char32 [.sani none] [55296, 57343]], false⟩, [239, 191, 189, 239, 191, 189]),
  /- utf32_to_utf16.cpp 76 -/ (.char16, ⟨[], [], [.str .char32 [.unchecked none, .align (.right 524288)] [97, 98, 128, 2048, 55295, 65536, 1114111]], false⟩, [32, 97, 98, 128, 2048, 55295, 55296, 56320, 56319, 57343]),
  /- utf32_to_utf16.cpp 205 -/ (.char16, ⟨[], [], [.str .char32 [.sani none, .align (.right 524288)] [97, 98, 128, 2048, 55295, 65536, 1114111]], false⟩, [32, 97, 98, 128, 2048, 55295, 55296, 56320, 56319, 57343]),
  /- utf32_to_utf16.cpp 490 -/ (.char16, ⟨[[]], [], [.str .char32 [.sani none] [1114112, 16777215]], false⟩, [65533, 65533])] = true := by decide +kernel

end Strf.Program
