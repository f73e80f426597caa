import Verif.Conformance.Base
/-! Generated by tools/conformance.py from /repo/tests: see Verif/Conformance/Base.lean. Tests of the model, not proofs. -/
namespace Strf.Program
open Strf.Format

set_option maxRecDepth 100000 in
example : allPrint [
  /- input_int.cpp 589 -/ (.char, ⟨[[.facet (.charset .char) (.charset .char ⟨.sbc 18, true⟩), .facet (.numpunct 10) (.numpunct 10 ⟨Numpunct.ctor2 [3], 46, 8364⟩)]], [], [.int ⟨.int, true⟩ [.align (.set 42 983040 .right), .pad0 12, .punct] 1234567], false⟩, [42, 42, 42, 48, 48, 48, 49, 128, 50, 51, 52, 128, 53, 54, 55]),
  /- input_int.cpp 592 -/ (.char, ⟨[[.facet (.charset .char) (.charset .char ⟨.sbc 18, true⟩), .facet (.numpunct 16) (.numpunct 16 ⟨Numpunct.ctor2 [3], 46, 8364⟩)]], [], [.int ⟨.int, true⟩ [.align (.set 42 983040 .right), .pad0 12, .hex, .star, .punct] 19088743], false⟩, [42, 42, 42, 48, 120, 48, 49, 128, 50, 51, 52, 128, 53, 54, 55]),
  /- input_int.cpp 597 -/ (.char, ⟨[[.facet (.numpunct 10) (.numpunct 10 ⟨Numpunct.ctor2 [2], 46, 58⟩)]], [], [.int ⟨.int, true⟩ [.punct, .pad0 7, .align (.right 917504)] 12345], false⟩, [32, 32, 32, 32, 32, 32, 32, 49, 58, 50, 51, 58, 52, 53]),
  /- input_int.cpp 598 -/ (.char, ⟨[[.facet (.numpunct 10) (.numpunct 10 ⟨Numpunct.ctor2 [2], 46, 58⟩)]], [], [.int ⟨.int, true⟩ [.punct, .pad0 8, .plus, .align (.right 917504)] 12345], false⟩, [32, 32, 32, 32, 32, 32, 43, 49, 58, 50, 51, 58, 52, 53]),
  /- input_int.cpp 599 -/ (.char, ⟨[[.facet (.numpunct 10) (.numpunct 10 ⟨Numpunct.ctor2 [2], 46, 58⟩)]], [], [.int ⟨.int, true⟩ [.punct, .pad0 8, .align (.right 917504)] (-12345)], false⟩, [32, 32, 32, 32, 32, 32, 45, 49, 58, 50, 51, 58, 52, 53]),
  /- input_int.cpp 600 -/ (.char, ⟨[[.facet (.numpunct 10) (.numpunct 10 ⟨Numpunct.ctor2 [2], 46, 58⟩)]], [], [.int ⟨.int, true⟩ [.punct, .pad0 8, .align (.right 917504)] 12345], false⟩, [32, 32, 32, 32, 32, 32, 48, 49, 58, 50, 51, 58, 52, 53]),
  /- input_int.cpp 601 -/ (.char, ⟨[[.facet (.numpunct 10) (.numpunct 10 ⟨Numpunct.ctor2 [2], 46, 58⟩)]], [], [.int ⟨.int, true⟩ [.punct, .pad0 9, .plus, .align (.right 917504)] 12345], false⟩, [32, 32, 32, 32, 32, 43, 48, 49, 58, 50, 51, 58, 52, 53]),
  /- input_int.cpp 603 -/ (.char, ⟨[[.facet (.numpunct 10) (.numpunct 10 ⟨Numpunct.ctor2 [2], 46, 58⟩)]], [], [.int ⟨.int, true⟩ [.punct, .p 5, .align (.right 917504)] 12345], false⟩, [32, 32, 32, 32, 32, 32, 32, 49, 58, 50, 51, 58, 52, 53]),
  /- input_int.cpp 604 -/ (.char, ⟨[[.facet (.numpunct 10) (.numpunct 10 ⟨Numpunct.ctor2 [2], 46, 58⟩)]], [], [.int ⟨.int, true⟩ [.punct, .p 5, .plus, .align (.right 917504)] (-12345)], false⟩, [32, 32, 32, 32, 32, 32, 45, 49, 58, 50, 51, 58, 52, 53]),
  /- input_int.cpp 605 -/ (.char, ⟨[[.facet (.numpunct 10) (.numpunct 10 ⟨Numpunct.ctor2 [2], 46, 58⟩)]], [], [.int ⟨.int, true⟩ [.punct, .p 5, .plus, .align (.right 917504)] 12345], false⟩, [32, 32, 32, 32, 32, 32, 43, 49, 58, 50, 51, 58, 52, 53]),
  /- input_int.cpp 606 -/ (.char, ⟨[[.facet (.numpunct 10) (.numpunct 10 ⟨Numpunct.ctor2 [2], 46, 58⟩)]], [], [.int ⟨.int, true⟩ [.punct, .p 6, .align (.right 917504)] 12345], false⟩, [32, 32, 32, 32, 32, 32, 48, 49, 58, 50, 51, 58, 52, 53]),
  /- input_int.cpp 607 -/ (.char, ⟨[[.facet (.numpunct 10) (.numpunct 10 ⟨Numpunct.ctor2 [2], 46, 58⟩)]], [], [.int ⟨.int, true⟩ [.punct, .p 6, .plus, .align (.right 917504)] 12345], false⟩, [32, 32, 32, 32, 32, 43, 48, 49, 58, 50, 51, 58, 52, 53]),
  /- input_int.cpp 609 -/ (.char, ⟨[[.facet (.numpunct 10) (.numpunct 10 ⟨Numpunct.ctor2 [2], 46, 58⟩)]], [], [.int ⟨.int, true⟩ [.punct, .pad0 7, .p 5, .align (.right 917504)] 12345], false⟩, [32, 32, 32, 32, 32, 32, 32, 49, 58, 50, 51, 58, 52, 53]),
  /- input_int.cpp 610 -/ (.char, ⟨[[.facet (.numpunct 10) (.numpunct 10 ⟨Numpunct.ctor2 [2], 46, 58⟩)]], [], [.int ⟨.int, true⟩ [.punct, .pad0 7, .p 6, .align (.right 917504)] 12345], false⟩, [32, 32, 32, 32, 32, 32, 48, 49, 58, 50, 51, 58, 52, 53]),
  /- input_int.cpp 611 -/ (.char, ⟨[[.facet (.numpunct 10) (.numpunct 10 ⟨Numpunct.ctor2 [2], 46, 58⟩)]], [], [.int ⟨.int, true⟩ [.punct, .pad0 8, .p 5, .align (.right 917504)] 12345], false⟩, [32, 32, 32, 32, 32, 32, 48, 49, 58, 50, 51, 58, 52, 53]),
  /- input_int.cpp 613 -/ (.char, ⟨[[.facet (.numpunct 10) (.numpunct 10 ⟨Numpunct.ctor2 [2], 46, 58⟩)]], [], [.int ⟨.int, true⟩ [.punct, .pad0 8, .p 5, .plus, .align (.right 917504)] 12345], false⟩, [32, 32, 32, 32, 32, 32, 43, 49, 58, 50, 51, 58, 52, 53]),
  /- input_int.cpp 614 -/ (.char, ⟨[[.facet (.numpunct 10) (.numpunct 10 ⟨Numpunct.ctor2 [2], 46, 58⟩)]], [], [.int ⟨.int, true⟩ [.punct, .pad0 8, .p 5, .plus, .align (.right 917504)] (-12345)], false⟩, [32, 32, 32, 32, 32, 32, 45, 49, 58, 50, 51, 58, 52, 53]),
  /- input_int.cpp 615 -/ (.char, ⟨[[.facet (.numpunct 10) (.numpunct 10 ⟨Numpunct.ctor2 [2], 46, 58⟩)]], [], [.int ⟨.int, true⟩ [.punct, .pad0 8, .p 6, .plus, .align (.right 917504)] 12345], false⟩, [32, 32, 32, 32, 32, 43, 48, 49, 58, 50, 51, 58, 52, 53]),
  /- input_int.cpp 616 -/ (.char, ⟨[[.facet (.numpunct 10) (.numpunct 10 ⟨Numpunct.ctor2 [2], 46, 58⟩)]], [], [.int ⟨.int, true⟩ [.punct, .pad0 9, .p 5, .plus, .align (.right 917504)] 12345], false⟩, [32, 32, 32, 32, 32, 43, 48, 49, 58, 50, 51, 58, 52, 53]),
  /- input_int.cpp 617 -/ (.char, ⟨[[.facet (.numpunct 10) (.numpunct 10 ⟨Numpunct.ctor2 [2], 46, 58⟩)]], [], [.int ⟨.int, true⟩ [.punct, .pad0 9, .p 5, .align (.right 917504)] (-12345)], false⟩, [32, 32, 32, 32, 32, 45, 48, 49, 58, 50, 51, 58, 52, 53]),
  /- input_int.cpp 620 -/ (.char, ⟨[[.facet (.numpunct 10) (.numpunct 10 ⟨Numpunct.ctor2 [2], 46, 58⟩)]], [], [.alignedJoin ⟨32, .right, 917504⟩ [.int ⟨.int, true⟩ [.punct, .pad0 7] 12345]], false⟩, [32, 32, 32, 32, 32, 32, 32, 49, 58, 50, 51, 58, 52, 53]),
  /- input_int.cpp 621 -/ (.char, ⟨[[.facet (.numpunct 10) (.numpunct 10 ⟨Numpunct.ctor2 [2], 46, 58⟩)]], [], [.alignedJoin ⟨32, .right, 917504⟩ [.int ⟨.int, true⟩ [.punct, .pad0 8, .plus] 12345]], false⟩, [32, 32, 32, 32, 32, 32, 43, 49, 58, 50, 51, 58, 52, 53]),
  /- input_int.cpp 622 -/ (.char, ⟨[[.facet (.numpunct 10) (.numpunct 10 ⟨Numpunct.ctor2 [2], 46, 58⟩)]], [], [.alignedJoin ⟨32, .right, 917504⟩ [.int ⟨.int, true⟩ [.punct, .pad0 8] (-12345)]], false⟩, [32, 32, 32, 32, 32, 32, 45, 49, 58, 50, 51, 58, 52, 53]),
  /- input_int.cpp 623 -/ (.char, ⟨[[.facet (.numpunct 10) (.numpunct 10 ⟨Numpunct.ctor2 [2], 46, 58⟩)]], [], [.alignedJoin ⟨32, .right, 917504⟩ [.int ⟨.int, true⟩ [.punct, .pad0 8] 12345]], false⟩, [32, 32, 32, 32, 32, 32, 48, 49, 58, 50, 51, 58, 52, 53]),
  /- input_int.cpp 624 -/ (.char, ⟨[[.facet (.numpunct 10) (.numpunct 10 ⟨Numpunct.ctor2 [2], 46, 58⟩)]], [], [.alignedJoin ⟨32, .right, 917504⟩ [.int ⟨.int, true⟩ [.punct, .pad0 9, .plus] 12345]], false⟩, [32, 32, 32, 32, 32, 43, 48, 49, 58, 50, 51, 58, 52, 53]),
  /- input_int.cpp 626 -/ (.char, ⟨[[.facet (.numpunct 10) (.numpunct 10 ⟨Numpunct.ctor2 [2], 46, 58⟩)]], [], [.alignedJoin ⟨32, .right, 917504⟩ [.int ⟨.int, true⟩ [.punct, .p 5] 12345]], false⟩, [32, 32, 32, 32, 32, 32, 32, 49, 58, 50, 51, 58, 52, 53]),
  /- input_int.cpp 627 -/ (.char, ⟨[[.facet (.numpunct 10) (.numpunct 10 ⟨Numpunct.ctor2 [2], 46, 58⟩)]], [], [.alignedJoin ⟨32, .right, 917504⟩ [.int ⟨.int, true⟩ [.punct, .p 5, .plus] (-12345)]], false⟩, [32, 32, 32, 32, 32, 32, 45, 49, 58, 50, 51, 58, 52, 53]),
  /- input_int.cpp 628 -/ (.char, ⟨[[.facet (.numpunct 10) (.numpunct 10 ⟨Numpunct.ctor2 [2], 46, 58⟩)]], [], [.alignedJoin ⟨32, .right, 917504⟩ [.int ⟨.int, true⟩ [.punct, .p 5, .plus] 12345]], false⟩, [32, 32, 32, 32, 32, 32, 43, 49, 58, 50, 51, 58, 52, 53]),
  /- input_int.cpp 629 -/ (.char, ⟨[[.facet (.numpunct 10) (.numpunct 10 ⟨Numpunct.ctor2 [2], 46, 58⟩)]], [], [.alignedJoin ⟨32, .right, 917504⟩ [.int ⟨.int, true⟩ [.punct, .p 6] 12345]], false⟩, [32, 32, 32, 32, 32, 32, 48, 49, 58, 50, 51, 58, 52, 53]),
  /- input_int.cpp 630 -/ (.char, ⟨[[.facet (.numpunct 10) (.numpunct 10 ⟨Numpunct.ctor2 [2], 46, 58⟩)]], [], [.alignedJoin ⟨32, .right, 917504⟩ [.int ⟨.int, true⟩ [.punct, .p 6, .plus] 12345]], false⟩, [32, 32, 32, 32, 32, 43, 48, 49, 58, 50, 51, 58, 52, 53]),
  /- input_int.cpp 632 -/ (.char, ⟨[[.facet (.numpunct 10) (.numpunct 10 ⟨Numpunct.ctor2 [2], 46, 58⟩)]], [], [.alignedJoin ⟨32, .right, 917504⟩ [.int ⟨.int, true⟩ [.punct, .pad0 7, .p 5] 12345]], false⟩, [32, 32, 32, 32, 32, 32, 32, 49, 58, 50, 51, 58, 52, 53]),
  /- input_int.cpp 633 -/ (.char, ⟨[[.facet (.numpunct 10) (.numpunct 10 ⟨Numpunct.ctor2 [2], 46, 58⟩)]], [], [.alignedJoin ⟨32, .right, 917504⟩ [.int ⟨.int, true⟩ [.punct, .pad0 7, .p 6] 12345]], false⟩, [32, 32, 32, 32, 32, 32, 48, 49, 58, 50, 51, 58, 52, 53]),
  /- input_int.cpp 634 -/ (.char, ⟨[[.facet (.numpunct 10) (.numpunct 10 ⟨Numpunct.ctor2 [2], 46, 58⟩)]], [], [.alignedJoin ⟨32, .right, 917504⟩ [.int ⟨.int, true⟩ [.punct, .pad0 8, .p 5] 12345]], false⟩, [32, 32, 32, 32, 32, 32, 48, 49, 58, 50, 51, 58, 52, 53]),
  /- input_int.cpp 636 -/ (.char, ⟨[[.facet (.numpunct 10) (.numpunct 10 ⟨Numpunct.ctor2 [2], 46, 58⟩)]], [], [.alignedJoin ⟨32, .right, 917504⟩ [.int ⟨.int, true⟩ [.punct, .pad0 8, .p 5, .plus] 12345]], false⟩, [32, 32, 32, 32, 32, 32, 43, 49, 58, 50, 51, 58, 52, 53]),
  /- input_int.cpp 637 -/ (.char, ⟨[[.facet (.numpunct 10) (.numpunct 10 ⟨Numpunct.ctor2 [2], 46, 58⟩)]], [], [.alignedJoin ⟨32, .right, 917504⟩ [.int ⟨.int, true⟩ [.punct, .pad0 8, .p 5, .plus] (-12345)]], false⟩, [32, 32, 32, 32, 32, 32, 45, 49, 58, 50, 51, 58, 52, 53]),
  /- input_int.cpp 638 -/ (.char, ⟨[[.facet (.numpunct 10) (.numpunct 10 ⟨Numpunct.ctor2 [2], 46, 58⟩)]], [], [.alignedJoin ⟨32, .right, 917504⟩ [.int ⟨.int, true⟩ [.punct, .pad0 8, .p 6, .plus] 12345]], false⟩, [32, 32, 32, 32, 32, 43, 48, 49, 58, 50, 51, 58, 52, 53]),
  /- input_int.cpp 639 -/ (.char, ⟨[[.facet (.numpunct 10) (.numpunct 10 ⟨Numpunct.ctor2 [2], 46, 58⟩)]], [], [.alignedJoin ⟨32, .right, 917504⟩ [.int ⟨.int, true⟩ [.punct, .pad0 9, .p 5, .plus] 12345]], false⟩, [32, 32, 32, 32, 32, 43, 48, 49, 58, 50, 51, 58, 52, 53]),
  /- input_int.cpp 640 -/ (.char, ⟨[[.facet (.numpunct 10) (.numpunct 10 ⟨Numpunct.ctor2 [2], 46, 58⟩)]], [], [.alignedJoin ⟨32, .right, 917504⟩ [.int ⟨.int, true⟩ [.punct, .pad0 9, .p 5] (-12345)]], false⟩, [32, 32, 32, 32, 32, 45, 48, 49, 58, 50, 51, 58, 52, 53]),
  /- input_int.cpp 643 -/ (.char, ⟨[[.facet (.numpunct 10) (.numpunct 10 ⟨Numpunct.ctor2 [2], 46, 58⟩)]], [], [.alignedJoin ⟨32, .right, 917504⟩ [.int ⟨.int, true⟩ [.align (.set 42 786432 .center), .fillSign, .punct] 12345]], false⟩, [32, 32, 42, 42, 42, 49, 58, 50, 51, 58, 52, 53, 42, 42]),
  /- input_int.cpp 644 -/ (.char, ⟨[[.facet (.numpunct 10) (.numpunct 10 ⟨Numpunct.ctor2 [2], 46, 58⟩)]], [], [.alignedJoin ⟨32, .right, 917504⟩ [.int ⟨.int, true⟩ [.align (.set 42 786432 .center), .fillSign, .pad0 8, .punct] 12345]], false⟩, [32, 32, 42, 42, 42, 49, 58, 50, 51, 58, 52, 53, 42, 42])] = true := by decide +kernel

set_option maxRecDepth 100000 in
example : allPrint [
  /- input_int.cpp 645 -/ (.char, ⟨[[.facet (.numpunct 10) (.numpunct 10 ⟨Numpunct.ctor2 [2], 46, 58⟩)]], [], [.alignedJoin ⟨32, .right, 917504⟩ [.int ⟨.int, true⟩ [.align (.set 42 786432 .center), .fillSign, .pad0 9, .punct] 12345]], false⟩, [32, 32, 42, 42, 48, 49, 58, 50, 51, 58, 52, 53, 42, 42]),
  /- input_int.cpp 646 -/ (.char, ⟨[[.facet (.numpunct 10) (.numpunct 10 ⟨Numpunct.ctor2 [2], 46, 58⟩)]], [], [.alignedJoin ⟨32, .right, 917504⟩ [.int ⟨.int, true⟩ [.align (.set 42 786432 .center), .pad0 9, .punct] 12345]], false⟩, [32, 32, 42, 48, 48, 49, 58, 50, 51, 58, 52, 53, 42, 42]),
  /- input_int.cpp 648 -/ (.char, ⟨[[.facet (.numpunct 10) (.numpunct 10 ⟨Numpunct.ctor2 [2], 46, 58⟩)]], [], [.alignedJoin ⟨32, .right, 917504⟩ [.int ⟨.int, true⟩ [.align (.set 42 786432 .left), .fillSign, .pad0 9, .punct] 12345]], false⟩, [32, 32, 42, 48, 49, 58, 50, 51, 58, 52, 53, 42, 42, 42]),
  /- input_int.cpp 649 -/ (.char, ⟨[[.facet (.numpunct 10) (.numpunct 10 ⟨Numpunct.ctor2 [2], 46, 58⟩)]], [], [.alignedJoin ⟨32, .right, 917504⟩ [.int ⟨.int, true⟩ [.align (.set 42 786432 .right), .fillSign, .pad0 9, .punct] 12345]], false⟩, [32, 32, 42, 42, 42, 42, 48, 49, 58, 50, 51, 58, 52, 53]),
  /- input_int.cpp 650 -/ (.char, ⟨[[.facet (.numpunct 10) (.numpunct 10 ⟨Numpunct.ctor2 [2], 46, 58⟩)]], [], [.alignedJoin ⟨32, .right, 917504⟩ [.int ⟨.int, true⟩ [.align (.set 42 0 .left), .fillSign, .pad0 12, .punct] 12345]], false⟩, [32, 32, 42, 48, 48, 48, 48, 49, 58, 50, 51, 58, 52, 53]),
  /- input_int.cpp 654 -/ (.char, ⟨[[.facet (.numpunct 16) (.numpunct 16 ⟨Numpunct.ctor2 [2], 46, 58⟩)]], [], [.int ⟨.int, true⟩ [.hex, .punct, .pad0 7, .align (.right 917504)] 74565], false⟩, [32, 32, 32, 32, 32, 32, 32, 49, 58, 50, 51, 58, 52, 53]),
  /- input_int.cpp 655 -/ (.char, ⟨[[.facet (.numpunct 16) (.numpunct 16 ⟨Numpunct.ctor2 [2], 46, 58⟩)]], [], [.int ⟨.int, true⟩ [.hex, .pad0 9, .punct, .star, .align (.right 917504)] 74565], false⟩, [32, 32, 32, 32, 32, 48, 120, 49, 58, 50, 51, 58, 52, 53]),
  /- input_int.cpp 656 -/ (.char, ⟨[[.facet (.numpunct 16) (.numpunct 16 ⟨Numpunct.ctor2 [2], 46, 58⟩)]], [], [.int ⟨.int, true⟩ [.hex, .punct, .pad0 8, .align (.right 917504)] 74565], false⟩, [32, 32, 32, 32, 32, 32, 48, 49, 58, 50, 51, 58, 52, 53]),
  /- input_int.cpp 657 -/ (.char, ⟨[[.facet (.numpunct 16) (.numpunct 16 ⟨Numpunct.ctor2 [2], 46, 58⟩)]], [], [.int ⟨.int, true⟩ [.hex, .pad0 10, .punct, .star, .align (.right 917504)] 74565], false⟩, [32, 32, 32, 32, 48, 120, 48, 49, 58, 50, 51, 58, 52, 53]),
  /- input_int.cpp 659 -/ (.char, ⟨[[.facet (.numpunct 16) (.numpunct 16 ⟨Numpunct.ctor2 [2], 46, 58⟩)]], [], [.int ⟨.int, true⟩ [.hex, .punct, .p 5, .align (.right 917504)] 74565], false⟩, [32, 32, 32, 32, 32, 32, 32, 49, 58, 50, 51, 58, 52, 53]),
  /- input_int.cpp 660 -/ (.char, ⟨[[.facet (.numpunct 16) (.numpunct 16 ⟨Numpunct.ctor2 [2], 46, 58⟩)]], [], [.int ⟨.int, true⟩ [.hex, .p 5, .punct, .star, .align (.right 917504)] 74565], false⟩, [32, 32, 32, 32, 32, 48, 120, 49, 58, 50, 51, 58, 52, 53]),
  /- input_int.cpp 661 -/ (.char, ⟨[[.facet (.numpunct 16) (.numpunct 16 ⟨Numpunct.ctor2 [2], 46, 58⟩)]], [], [.int ⟨.int, true⟩ [.hex, .punct, .p 6, .align (.right 917504)] 74565], false⟩, [32, 32, 32, 32, 32, 32, 48, 49, 58, 50, 51, 58, 52, 53]),
  /- input_int.cpp 662 -/ (.char, ⟨[[.facet (.numpunct 16) (.numpunct 16 ⟨Numpunct.ctor2 [2], 46, 58⟩)]], [], [.int ⟨.int, true⟩ [.hex, .p 6, .punct, .star, .align (.right 917504)] 74565], false⟩, [32, 32, 32, 32, 48, 120, 48, 49, 58, 50, 51, 58, 52, 53]),
  /- input_int.cpp 664 -/ (.char, ⟨[[.facet (.numpunct 16) (.numpunct 16 ⟨Numpunct.ctor2 [2], 46, 58⟩)]], [], [.int ⟨.int, true⟩ [.hex, .punct, .pad0 7, .p 5, .align (.right 917504)] 74565], false⟩, [32, 32, 32, 32, 32, 32, 32, 49, 58, 50, 51, 58, 52, 53]),
  /- input_int.cpp 665 -/ (.char, ⟨[[.facet (.numpunct 16) (.numpunct 16 ⟨Numpunct.ctor2 [2], 46, 58⟩)]], [], [.int ⟨.int, true⟩ [.hex, .punct, .pad0 7, .p 6, .align (.right 917504)] 74565], false⟩, [32, 32, 32, 32, 32, 32, 48, 49, 58, 50, 51, 58, 52, 53]),
  /- input_int.cpp 666 -/ (.char, ⟨[[.facet (.numpunct 16) (.numpunct 16 ⟨Numpunct.ctor2 [2], 46, 58⟩)]], [], [.int ⟨.int, true⟩ [.hex, .punct, .pad0 8, .p 5, .align (.right 917504)] 74565], false⟩, [32, 32, 32, 32, 32, 32, 48, 49, 58, 50, 51, 58, 52, 53]),
  /- input_int.cpp 668 -/ (.char, ⟨[[.facet (.numpunct 16) (.numpunct 16 ⟨Numpunct.ctor2 [2], 46, 58⟩)]], [], [.int ⟨.int, true⟩ [.hex, .pad0 9, .p 5, .punct, .star, .align (.right 917504)] 74565], false⟩, [32, 32, 32, 32, 32, 48, 120, 49, 58, 50, 51, 58, 52, 53]),
  /- input_int.cpp 669 -/ (.char, ⟨[[.facet (.numpunct 16) (.numpunct 16 ⟨Numpunct.ctor2 [2], 46, 58⟩)]], [], [.int ⟨.int, true⟩ [.hex, .pad0 7, .p 6, .punct, .star, .align (.right 917504)] 74565], false⟩, [32, 32, 32, 32, 48, 120, 48, 49, 58, 50, 51, 58, 52, 53]),
  /- input_int.cpp 670 -/ (.char, ⟨[[.facet (.numpunct 16) (.numpunct 16 ⟨Numpunct.ctor2 [2], 46, 58⟩)]], [], [.int ⟨.int, true⟩ [.hex, .pad0 10, .p 5, .punct, .star, .align (.right 917504)] 74565], false⟩, [32, 32, 32, 32, 48, 120, 48, 49, 58, 50, 51, 58, 52, 53]),
  /- input_int.cpp 673 -/ (.char, ⟨[[.facet (.numpunct 16) (.numpunct 16 ⟨Numpunct.ctor2 [2], 46, 58⟩)]], [], [.alignedJoin ⟨32, .right, 917504⟩ [.int ⟨.int, true⟩ [.hex, .pad0 7, .punct] 74565]], false⟩, [32, 32, 32, 32, 32, 32, 32, 49, 58, 50, 51, 58, 52, 53]),
  /- input_int.cpp 674 -/ (.char, ⟨[[.facet (.numpunct 16) (.numpunct 16 ⟨Numpunct.ctor2 [2], 46, 58⟩)]], [], [.alignedJoin ⟨32, .right, 917504⟩ [.int ⟨.int, true⟩ [.hex, .pad0 9, .punct, .star] 74565]], false⟩, [32, 32, 32, 32, 32, 48, 120, 49, 58, 50, 51, 58, 52, 53]),
  /- input_int.cpp 675 -/ (.char, ⟨[[.facet (.numpunct 16) (.numpunct 16 ⟨Numpunct.ctor2 [2], 46, 58⟩)]], [], [.alignedJoin ⟨32, .right, 917504⟩ [.int ⟨.int, true⟩ [.hex, .pad0 8, .punct] 74565]], false⟩, [32, 32, 32, 32, 32, 32, 48, 49, 58, 50, 51, 58, 52, 53]),
  /- input_int.cpp 676 -/ (.char, ⟨[[.facet (.numpunct 16) (.numpunct 16 ⟨Numpunct.ctor2 [2], 46, 58⟩)]], [], [.alignedJoin ⟨32, .right, 917504⟩ [.int ⟨.int, true⟩ [.hex, .pad0 10, .punct, .star] 74565]], false⟩, [32, 32, 32, 32, 48, 120, 48, 49, 58, 50, 51, 58, 52, 53]),
  /- input_int.cpp 678 -/ (.char, ⟨[[.facet (.numpunct 16) (.numpunct 16 ⟨Numpunct.ctor2 [2], 46, 58⟩)]], [], [.alignedJoin ⟨32, .right, 917504⟩ [.int ⟨.int, true⟩ [.hex, .p 5, .punct] 74565]], false⟩, [32, 32, 32, 32, 32, 32, 32, 49, 58, 50, 51, 58, 52, 53]),
  /- input_int.cpp 679 -/ (.char, ⟨[[.facet (.numpunct 16) (.numpunct 16 ⟨Numpunct.ctor2 [2], 46, 58⟩)]], [], [.alignedJoin ⟨32, .right, 917504⟩ [.int ⟨.int, true⟩ [.hex, .p 5, .punct, .star] 74565]], false⟩, [32, 32, 32, 32, 32, 48, 120, 49, 58, 50, 51, 58, 52, 53]),
  /- input_int.cpp 680 -/ (.char, ⟨[[.facet (.numpunct 16) (.numpunct 16 ⟨Numpunct.ctor2 [2], 46, 58⟩)]], [], [.alignedJoin ⟨32, .right, 917504⟩ [.int ⟨.int, true⟩ [.hex, .p 6, .punct] 74565]], false⟩, [32, 32, 32, 32, 32, 32, 48, 49, 58, 50, 51, 58, 52, 53]),
  /- input_int.cpp 681 -/ (.char, ⟨[[.facet (.numpunct 16) (.numpunct 16 ⟨Numpunct.ctor2 [2], 46, 58⟩)]], [], [.alignedJoin ⟨32, .right, 917504⟩ [.int ⟨.int, true⟩ [.hex, .p 6, .punct, .star] 74565]], false⟩, [32, 32, 32, 32, 48, 120, 48, 49, 58, 50, 51, 58, 52, 53]),
  /- input_int.cpp 683 -/ (.char, ⟨[[.facet (.numpunct 16) (.numpunct 16 ⟨Numpunct.ctor2 [2], 46, 58⟩)]], [], [.alignedJoin ⟨32, .right, 917504⟩ [.int ⟨.int, true⟩ [.hex, .pad0 7, .p 5, .punct] 74565]], false⟩, [32, 32, 32, 32, 32, 32, 32, 49, 58, 50, 51, 58, 52, 53]),
  /- input_int.cpp 684 -/ (.char, ⟨[[.facet (.numpunct 16) (.numpunct 16 ⟨Numpunct.ctor2 [2], 46, 58⟩)]], [], [.alignedJoin ⟨32, .right, 917504⟩ [.int ⟨.int, true⟩ [.hex, .pad0 7, .p 6, .punct] 74565]], false⟩, [32, 32, 32, 32, 32, 32, 48, 49, 58, 50, 51, 58, 52, 53]),
  /- input_int.cpp 685 -/ (.char, ⟨[[.facet (.numpunct 16) (.numpunct 16 ⟨Numpunct.ctor2 [2], 46, 58⟩)]], [], [.alignedJoin ⟨32, .right, 917504⟩ [.int ⟨.int, true⟩ [.hex, .pad0 8, .p 5, .punct] 74565]], false⟩, [32, 32, 32, 32, 32, 32, 48, 49, 58, 50, 51, 58, 52, 53]),
  /- input_int.cpp 687 -/ (.char, ⟨[[.facet (.numpunct 16) (.numpunct 16 ⟨Numpunct.ctor2 [2], 46, 58⟩)]], [], [.alignedJoin ⟨32, .right, 917504⟩ [.int ⟨.int, true⟩ [.hex, .pad0 9, .p 5, .punct, .star] 74565]], false⟩, [32, 32, 32, 32, 32, 48, 120, 49, 58, 50, 51, 58, 52, 53]),
  /- input_int.cpp 688 -/ (.char, ⟨[[.facet (.numpunct 16) (.numpunct 16 ⟨Numpunct.ctor2 [2], 46, 58⟩)]], [], [.alignedJoin ⟨32, .right, 917504⟩ [.int ⟨.int, true⟩ [.hex, .pad0 7, .p 6, .punct, .star] 74565]], false⟩, [32, 32, 32, 32, 48, 120, 48, 49, 58, 50, 51, 58, 52, 53]),
  /- input_int.cpp 689 -/ (.char, ⟨[[.facet (.numpunct 16) (.numpunct 16 ⟨Numpunct.ctor2 [2], 46, 58⟩)]], [], [.alignedJoin ⟨32, .right, 917504⟩ [.int ⟨.int, true⟩ [.hex, .pad0 10, .p 5, .punct, .star] 74565]], false⟩, [32, 32, 32, 32, 48, 120, 48, 49, 58, 50, 51, 58, 52, 53]),
  /- input_int.cpp 694 -/ (.char, ⟨[[.facet (.numpunct 8) (.numpunct 8 ⟨Numpunct.ctor2 [2], 46, 58⟩)]], [], [.int ⟨.int, true⟩ [.oct, .punct, .pad0 10, .align (.right 917504)] 342391], false⟩, [32, 32, 32, 32, 49, 58, 50, 51, 58, 52, 53, 58, 54, 55]),
  /- input_int.cpp 695 -/ (.char, ⟨[[.facet (.numpunct 8) (.numpunct 8 ⟨Numpunct.ctor2 [2], 46, 58⟩)]], [], [.int ⟨.int, true⟩ [.oct, .punct, .pad0 11, .align (.right 917504)] 342391], false⟩, [32, 32, 32, 48, 49, 58, 50, 51, 58, 52, 53, 58, 54, 55]),
  /- input_int.cpp 696 -/ (.char, ⟨[[.facet (.numpunct 8) (.numpunct 8 ⟨Numpunct.ctor2 [2], 46, 58⟩)]], [], [.int ⟨.int, true⟩ [.oct, .punct, .pad0 11, .star, .align (.right 917504)] 342391], false⟩, [32, 32, 32, 48, 49, 58, 50, 51, 58, 52, 53, 58, 54, 55]),
  /- input_int.cpp 697 -/ (.char, ⟨[[.facet (.numpunct 8) (.numpunct 8 ⟨Numpunct.ctor2 [2], 46, 58⟩)]], [], [.int ⟨.int, true⟩ [.oct, .punct, .p 8, .align (.right 917504)] 342391], false⟩, [32, 32, 32, 48, 49, 58, 50, 51, 58, 52, 53, 58, 54, 55]),
  /- input_int.cpp 698 -/ (.char, ⟨[[.facet (.numpunct 8) (.numpunct 8 ⟨Numpunct.ctor2 [2], 46, 58⟩)]], [], [.int ⟨.int, true⟩ [.oct, .punct, .p 8, .star, .align (.right 917504)] 342391], false⟩, [32, 32, 32, 48, 49, 58, 50, 51, 58, 52, 53, 58, 54, 55]),
  /- input_int.cpp 699 -/ (.char, ⟨[[.facet (.numpunct 8) (.numpunct 8 ⟨Numpunct.ctor2 [2], 46, 58⟩)]], [], [.int ⟨.int, true⟩ [.oct, .punct, .pad0 11, .p 9, .align (.right 917504)] 342391], false⟩, [32, 32, 48, 48, 49, 58, 50, 51, 58, 52, 53, 58, 54, 55]),
  /- input_int.cpp 700 -/ (.char, ⟨[[.facet (.numpunct 8) (.numpunct 8 ⟨Numpunct.ctor2 [2], 46, 58⟩)]], [], [.int ⟨.int, true⟩ [.oct, .punct, .pad0 12, .p 8, .align (.right 917504)] 342391], false⟩, [32, 32, 48, 48, 49, 58, 50, 51, 58, 52, 53, 58, 54, 55])] = true := by decide +kernel

set_option maxRecDepth 100000 in
example : allPrint [
  /- input_int.cpp 701 -/ (.char, ⟨[[.facet (.numpunct 8) (.numpunct 8 ⟨Numpunct.ctor2 [2], 46, 58⟩)]], [], [.int ⟨.int, true⟩ [.oct, .punct, .pad0 11, .p 9, .star, .align (.right 917504)] 342391], false⟩, [32, 32, 48, 48, 49, 58, 50, 51, 58, 52, 53, 58, 54, 55]),
  /- input_int.cpp 702 -/ (.char, ⟨[[.facet (.numpunct 8) (.numpunct 8 ⟨Numpunct.ctor2 [2], 46, 58⟩)]], [], [.int ⟨.int, true⟩ [.oct, .punct, .pad0 12, .p 8, .star, .align (.right 917504)] 342391], false⟩, [32, 32, 48, 48, 49, 58, 50, 51, 58, 52, 53, 58, 54, 55]),
  /- input_int.cpp 708 -/ (.char, ⟨[[.facet (.numpunct 10) (.numpunct 10 ⟨Numpunct.ctor2 [1, 2, 3], 46, 1114111⟩)]], [], [.int ⟨.longLong, false⟩ [.punct] 18446744073709551615], false⟩, [49, 56, 244, 143, 191, 191, 52, 52, 54, 244, 143, 191, 191, 55, 52, 52, 244, 143, 191, 191, 48, 55, 51, 244, 143, 191, 191, 55, 48, 57, 244, 143, 191, 191, 53, 53, 49, 244, 143, 191, 191, 54, 49, 244, 143, 191, 191, 53]),
  /- input_int.cpp 712 -/ (.char, ⟨[[.facet (.numpunct 10) (.numpunct 10 ⟨Numpunct.ctor2 [-1], 46, 1114111⟩)]], [], [.int ⟨.longLong, false⟩ [.punct] 18446744073709551615], false⟩, [49, 56, 52, 52, 54, 55, 52, 52, 48, 55, 51, 55, 48, 57, 53, 53, 49, 54, 49, 53]),
  /- input_int.cpp 715 -/ (.char, ⟨[[.facet (.numpunct 10) (.numpunct 10 ⟨Numpunct.ctor2 [3, 2, 1, -1], 46, 1114111⟩)]], [], [.int ⟨.longLong, false⟩ [.punct] 18446744073709551615], false⟩, [49, 56, 52, 52, 54, 55, 52, 52, 48, 55, 51, 55, 48, 57, 244, 143, 191, 191, 53, 244, 143, 191, 191, 53, 49, 244, 143, 191, 191, 54, 49, 53]),
  /- input_int.cpp 718 -/ (.char, ⟨[[.facet (.numpunct 10) (.numpunct 10 ⟨Numpunct.ctor2 [3, 2, 1], 46, 1114111⟩)]], [], [.int ⟨.longLong, false⟩ [.punct] 18446744073709551615], false⟩, [49, 244, 143, 191, 191, 56, 244, 143, 191, 191, 52, 244, 143, 191, 191, 52, 244, 143, 191, 191, 54, 244, 143, 191, 191, 55, 244, 143, 191, 191, 52, 244, 143, 191, 191, 52, 244, 143, 191, 191, 48, 244, 143, 191, 191, 55, 244, 143, 191, 191, 51, 244, 143, 191, 191, 55, 244, 143, 191, 191, 48, 244, 143, 191, 191, 57, 244, 143, 191, 191, 53, 244, 143, 191, 191, 53, 49, 244, 143, 191, 191, 54, 49, 53]),
  /- input_int.cpp 724 -/ (.char, ⟨[[.facet (.numpunct 10) (.numpunct 10 ⟨Numpunct.ctor2 [3, 3, 2, 1], 46, 1114111⟩)]], [], [.int ⟨.longLong, false⟩ [.punct] 18446744073709551615], false⟩, [49, 244, 143, 191, 191, 56, 244, 143, 191, 191, 52, 244, 143, 191, 191, 52, 244, 143, 191, 191, 54, 244, 143, 191, 191, 55, 244, 143, 191, 191, 52, 244, 143, 191, 191, 52, 244, 143, 191, 191, 48, 244, 143, 191, 191, 55, 244, 143, 191, 191, 51, 244, 143, 191, 191, 55, 244, 143, 191, 191, 48, 57, 244, 143, 191, 191, 53, 53, 49, 244, 143, 191, 191, 54, 49, 53]),
  /- input_int.cpp 731 -/ (.char, ⟨[[.facet (.numpunct 10) (.numpunct 10 ⟨Numpunct.ctor2 [4, 2], 46, 1114111⟩)]], [], [.int ⟨.longLong, false⟩ [.punct] 18446744073709551615], false⟩, [49, 56, 244, 143, 191, 191, 52, 52, 244, 143, 191, 191, 54, 55, 244, 143, 191, 191, 52, 52, 244, 143, 191, 191, 48, 55, 244, 143, 191, 191, 51, 55, 244, 143, 191, 191, 48, 57, 244, 143, 191, 191, 53, 53, 244, 143, 191, 191, 49, 54, 49, 53]),
  /- input_int.cpp 736 -/ (.char, ⟨[[.facet (.numpunct 10) (.numpunct 10 ⟨Numpunct.ctor2 [3, 2], 46, 1114111⟩)]], [], [.int ⟨.longLong, false⟩ [.punct] 18446744073709551615], false⟩, [49, 244, 143, 191, 191, 56, 52, 244, 143, 191, 191, 52, 54, 244, 143, 191, 191, 55, 52, 244, 143, 191, 191, 52, 48, 244, 143, 191, 191, 55, 51, 244, 143, 191, 191, 55, 48, 244, 143, 191, 191, 57, 53, 244, 143, 191, 191, 53, 49, 244, 143, 191, 191, 54, 49, 53]),
  /- input_int.cpp 766 -/ (.char, ⟨[[.facet (.numpunct 10) (.numpunct 10 ⟨Numpunct.ctor2 [3], 46, 44⟩)]], [], [.int ⟨.int, true⟩ [.punct] 0], false⟩, [48]),
  /- input_int.cpp 767 -/ (.char, ⟨[[.facet (.numpunct 10) (.numpunct 10 ⟨Numpunct.ctor2 [3], 46, 44⟩)]], [], [.int ⟨.int, true⟩ [.punct] 1000], false⟩, [49, 44, 48, 48, 48]),
  /- input_int.cpp 768 -/ (.char, ⟨[[.facet (.numpunct 10) (.numpunct 10 ⟨Numpunct.ctor2 [3], 46, 44⟩)]], [], [.alignedJoin ⟨32, .right, 524288⟩ [.int ⟨.long true, false⟩ [.punct] 1000]], false⟩, [32, 32, 32, 49, 44, 48, 48, 48]),
  /- input_int.cpp 769 -/ (.char, ⟨[[.facet (.numpunct 10) (.numpunct 10 ⟨Numpunct.ctor2 [3], 46, 44⟩)]], [], [.int ⟨.int, true⟩ [.punct] (-1000)], false⟩, [45, 49, 44, 48, 48, 48]),
  /- input_int.cpp 771 -/ (.char, ⟨[[.facet (.numpunct 10) (.numpunct 10 ⟨Numpunct.ctor2 [3], 46, 44⟩)]], [], [.int ⟨.int, true⟩ [.align (.right 524288), .punct] 0], false⟩, [32, 32, 32, 32, 32, 32, 32, 48]),
  /- input_int.cpp 772 -/ (.char, ⟨[[.facet (.numpunct 10) (.numpunct 10 ⟨Numpunct.ctor2 [3], 46, 44⟩)]], [], [.int ⟨.int, true⟩ [.align (.right 524288), .punct] 100], false⟩, [32, 32, 32, 32, 32, 49, 48, 48]),
  /- input_int.cpp 773 -/ (.char, ⟨[[.facet (.numpunct 10) (.numpunct 10 ⟨Numpunct.ctor2 [3], 46, 44⟩)]], [], [.int ⟨.int, true⟩ [.align (.right 524288), .punct] 1000], false⟩, [32, 32, 32, 49, 44, 48, 48, 48]),
  /- input_int.cpp 774 -/ (.char, ⟨[[.facet (.numpunct 10) (.numpunct 10 ⟨Numpunct.ctor2 [3], 46, 44⟩)]], [], [.int ⟨.int, true⟩ [.align (.right 1179648), .p 14, .punct] 1000], false⟩, [32, 32, 32, 48, 48, 48, 48, 48, 48, 48, 48, 48, 48, 49, 44, 48, 48, 48]),
  /- input_int.cpp 775 -/ (.char, ⟨[[.facet (.numpunct 10) (.numpunct 10 ⟨Numpunct.ctor2 [3], 46, 44⟩)]], [], [.int ⟨.int, true⟩ [.hex, .punct, .align (.right 524288)] 4096], false⟩, [32, 32, 32, 32, 49, 48, 48, 48]),
  /- input_int.cpp 777 -/ (.char, ⟨[[.facet (.numpunct 10) (.numpunct 10 ⟨Numpunct.ctor2 [3], 46, 44⟩)]], [], [.alignedJoin ⟨32, .right, 524288⟩ [.int ⟨.int, true⟩ [.dec, .punct] 0]], false⟩, [32, 32, 32, 32, 32, 32, 32, 48]),
  /- input_int.cpp 778 -/ (.char, ⟨[[.facet (.numpunct 10) (.numpunct 10 ⟨Numpunct.ctor2 [3], 46, 44⟩)]], [], [.alignedJoin ⟨32, .right, 524288⟩ [.int ⟨.int, true⟩ [.dec, .punct] 100]], false⟩, [32, 32, 32, 32, 32, 49, 48, 48]),
  /- input_int.cpp 779 -/ (.char, ⟨[[.facet (.numpunct 10) (.numpunct 10 ⟨Numpunct.ctor2 [3], 46, 44⟩)]], [], [.alignedJoin ⟨32, .right, 524288⟩ [.int ⟨.int, true⟩ [.dec, .punct] 1000]], false⟩, [32, 32, 32, 49, 44, 48, 48, 48]),
  /- input_int.cpp 780 -/ (.char, ⟨[[.facet (.numpunct 10) (.numpunct 10 ⟨Numpunct.ctor2 [3], 46, 44⟩)]], [], [.alignedJoin ⟨32, .right, 524288⟩ [.int ⟨.int, true⟩ [.hex, .punct] 4096]], false⟩, [32, 32, 32, 32, 49, 48, 48, 48]),
  /- input_int.cpp 784 -/ (.char, ⟨[[.facet (.numpunct 10) (.numpunct 10 ⟨Numpunct.ctor2 [1], 46, 44⟩)]], [], [.int ⟨.int, true⟩ [.punct] 0], false⟩, [48]),
  /- input_int.cpp 785 -/ (.char, ⟨[[.facet (.numpunct 10) (.numpunct 10 ⟨Numpunct.ctor2 [1], 46, 44⟩)]], [], [.int ⟨.int, true⟩ [.punct] 9], false⟩, [57]),
  /- input_int.cpp 786 -/ (.char, ⟨[[.facet (.numpunct 10) (.numpunct 10 ⟨Numpunct.ctor2 [1], 46, 44⟩)]], [], [.int ⟨.int, true⟩ [.punct] 99], false⟩, [57, 44, 57]),
  /- input_int.cpp 787 -/ (.char, ⟨[[.facet (.numpunct 10) (.numpunct 10 ⟨Numpunct.ctor2 [1], 46, 44⟩)]], [], [.int ⟨.int, true⟩ [.punct] 999], false⟩, [57, 44, 57, 44, 57]),
  /- input_int.cpp 788 -/ (.char, ⟨[[.facet (.numpunct 10) (.numpunct 10 ⟨Numpunct.ctor2 [-1], 46, 44⟩)]], [], [.int ⟨.int, true⟩ [.punct] 99999], false⟩, [57, 57, 57, 57, 57]),
  /- input_int.cpp 790 -/ (.char, ⟨[[.facet (.numpunct 10) (.numpunct 10 ⟨Numpunct.ctor2 [4, 3, 2], 46, 44⟩)]], [], [.int ⟨.int, true⟩ [.punct] 12345], false⟩, [49, 44, 50, 51, 52, 53]),
  /- input_int.cpp 791 -/ (.char, ⟨[[.facet (.numpunct 10) (.numpunct 10 ⟨Numpunct.ctor2 [4, 2, 1], 46, 44⟩)]], [], [.int ⟨.int, true⟩ [.punct] 123456], false⟩, [49, 50, 44, 51, 52, 53, 54]),
  /- input_int.cpp 793 -/ (.char, ⟨[[.facet (.numpunct 10) (.numpunct 10 ⟨Numpunct.ctor2 [3, 2], 46, 44⟩)]], [], [.int ⟨.int, true⟩ [.punct] 1], false⟩, [49]),
  /- input_int.cpp 794 -/ (.char, ⟨[[.facet (.numpunct 10) (.numpunct 10 ⟨Numpunct.ctor2 [3, 2], 46, 44⟩)]], [], [.int ⟨.int, true⟩ [.punct] 12], false⟩, [49, 50]),
  /- input_int.cpp 795 -/ (.char, ⟨[[.facet (.numpunct 10) (.numpunct 10 ⟨Numpunct.ctor2 [3, 2], 46, 44⟩)]], [], [.int ⟨.int, true⟩ [.punct] 123], false⟩, [49, 50, 51]),
  /- input_int.cpp 796 -/ (.char, ⟨[[.facet (.numpunct 10) (.numpunct 10 ⟨Numpunct.ctor2 [3, 2], 46, 44⟩)]], [], [.int ⟨.int, true⟩ [.punct] 1234], false⟩, [49, 44, 50, 51, 52]),
  /- input_int.cpp 798 -/ (.char, ⟨[[.facet (.numpunct 10) (.numpunct 10 ⟨Numpunct.ctor2 [3, 2], 46, 44⟩)]], [], [.int ⟨.int, true⟩ [.punct] 12345], false⟩, [49, 50, 44, 51, 52, 53]),
  /- input_int.cpp 799 -/ (.char, ⟨[[.facet (.numpunct 10) (.numpunct 10 ⟨Numpunct.ctor2 [3, 1, -1], 46, 44⟩)]], [], [.int ⟨.int, true⟩ [.punct] 987654321], false⟩, [57, 56, 55, 54, 53, 44, 52, 44, 51, 50, 49]),
  /- input_int.cpp 800 -/ (.char, ⟨[[.facet (.numpunct 10) (.numpunct 10 ⟨Numpunct.ctor2 [3, 1, 2], 46, 44⟩)]], [], [.int ⟨.int, true⟩ [.punct] 987654321], false⟩, [57, 44, 56, 55, 44, 54, 53, 44, 52, 44, 51, 50, 49]),
  /- input_int.cpp 801 -/ (.char, ⟨[[.facet (.numpunct 10) (.numpunct 10 ⟨Numpunct.ctor2 [2, 1, -1], 46, 44⟩)]], [], [.int ⟨.int, true⟩ [.punct] 987654321], false⟩, [57, 56, 55, 54, 53, 52, 44, 51, 44, 50, 49]),
  /- input_int.cpp 802 -/ (.char, ⟨[[.facet (.numpunct 10) (.numpunct 10 ⟨Numpunct.ctor2 [3, 1, 1, -1], 46, 44⟩)]], [], [.int ⟨.int, true⟩ [.punct] 987654321], false⟩, [57, 56, 55, 54, 44, 53, 44, 52, 44, 51, 50, 49]),
  /- input_int.cpp 803 -/ (.char, ⟨[[.facet (.numpunct 10) (.numpunct 10 ⟨Numpunct.ctor2 [2, 1, 1], 46, 44⟩)]], [], [.int ⟨.int, true⟩ [.punct] 987654321], false⟩, [57, 44, 56, 44, 55, 44, 54, 44, 53, 44, 52, 44, 51, 44, 50, 49]),
  /- input_int.cpp 804 -/ (.char, ⟨[[.facet (.numpunct 10) (.numpunct 10 ⟨Numpunct.ctor2 [2, 1], 46, 44⟩)]], [], [.int ⟨.int, true⟩ [.punct] 123], false⟩, [49, 44, 50, 51])] = true := by decide +kernel

set_option maxRecDepth 100000 in
example : allPrint [
  /- input_int.cpp 805 -/ (.char, ⟨[[.facet (.numpunct 10) (.numpunct 10 ⟨Numpunct.ctor2 [3, 1], 46, 44⟩)]], [], [.int ⟨.int, true⟩ [.punct] 1234], false⟩, [49, 44, 50, 51, 52]),
  /- input_int.cpp 807 -/ (.char, ⟨[[.facet (.numpunct 10) (.numpunct 10 ⟨Numpunct.ctor2 [3], 46, 44⟩)]], [], [.int ⟨.longLong, false⟩ [.punct] 18446744073709551615], false⟩, [49, 56, 44, 52, 52, 54, 44, 55, 52, 52, 44, 48, 55, 51, 44, 55, 48, 57, 44, 53, 53, 49, 44, 54, 49, 53]),
  /- input_int.cpp 809 -/ (.char, ⟨[[.facet (.numpunct 10) (.numpunct 10 ⟨Numpunct.ctor2 [3], 46, 44⟩)]], [], [.int ⟨.longLong, false⟩ [.punct] 8446744073709551615], false⟩, [56, 44, 52, 52, 54, 44, 55, 52, 52, 44, 48, 55, 51, 44, 55, 48, 57, 44, 53, 53, 49, 44, 54, 49, 53]),
  /- input_int.cpp 811 -/ (.char, ⟨[[.facet (.numpunct 10) (.numpunct 10 ⟨Numpunct.ctor2 [3], 46, 44⟩)]], [], [.int ⟨.longLong, false⟩ [.punct] 446744073709551615], false⟩, [52, 52, 54, 44, 55, 52, 52, 44, 48, 55, 51, 44, 55, 48, 57, 44, 53, 53, 49, 44, 54, 49, 53]),
  /- input_int.cpp 813 -/ (.char, ⟨[[.facet (.numpunct 10) (.numpunct 10 ⟨Numpunct.ctor2 [1, 2, 3], 46, 44⟩)]], [], [.int ⟨.longLong, false⟩ [.punct] 18446744073709551615], false⟩, [49, 56, 44, 52, 52, 54, 44, 55, 52, 52, 44, 48, 55, 51, 44, 55, 48, 57, 44, 53, 53, 49, 44, 54, 49, 44, 53]),
  /- input_int.cpp 815 -/ (.char, ⟨[[.facet (.numpunct 10) (.numpunct 10 ⟨Numpunct.ctor2 [-1], 46, 44⟩)]], [], [.int ⟨.longLong, false⟩ [.punct] 18446744073709551615], false⟩, [49, 56, 52, 52, 54, 55, 52, 52, 48, 55, 51, 55, 48, 57, 53, 53, 49, 54, 49, 53]),
  /- input_int.cpp 817 -/ (.char, ⟨[[.facet (.numpunct 10) (.numpunct 10 ⟨Numpunct.ctor2 [3, 2, 1, -1], 46, 44⟩)]], [], [.int ⟨.longLong, false⟩ [.punct] 18446744073709551615], false⟩, [49, 56, 52, 52, 54, 55, 52, 52, 48, 55, 51, 55, 48, 57, 44, 53, 44, 53, 49, 44, 54, 49, 53]),
  /- input_int.cpp 819 -/ (.char, ⟨[[.facet (.numpunct 10) (.numpunct 10 ⟨Numpunct.ctor2 [3, 2, 1], 46, 44⟩)]], [], [.int ⟨.longLong, false⟩ [.punct] 18446744073709551615], false⟩, [49, 44, 56, 44, 52, 44, 52, 44, 54, 44, 55, 44, 52, 44, 52, 44, 48, 44, 55, 44, 51, 44, 55, 44, 48, 44, 57, 44, 53, 44, 53, 49, 44, 54, 49, 53]),
  /- input_int.cpp 821 -/ (.char, ⟨[[.facet (.numpunct 10) (.numpunct 10 ⟨Numpunct.ctor2 [3, 3, 2, 1], 46, 44⟩)]], [], [.int ⟨.longLong, false⟩ [.punct] 18446744073709551615], false⟩, [49, 44, 56, 44, 52, 44, 52, 44, 54, 44, 55, 44, 52, 44, 52, 44, 48, 44, 55, 44, 51, 44, 55, 44, 48, 57, 44, 53, 53, 49, 44, 54, 49, 53]),
  /- input_int.cpp 823 -/ (.char, ⟨[[.facet (.numpunct 10) (.numpunct 10 ⟨Numpunct.ctor2 [4, 2], 46, 44⟩)]], [], [.int ⟨.longLong, false⟩ [.punct] 18446744073709551615], false⟩, [49, 56, 44, 52, 52, 44, 54, 55, 44, 52, 52, 44, 48, 55, 44, 51, 55, 44, 48, 57, 44, 53, 53, 44, 49, 54, 49, 53]),
  /- input_int.cpp 825 -/ (.char, ⟨[[.facet (.numpunct 10) (.numpunct 10 ⟨Numpunct.ctor2 [3, 2], 46, 44⟩)]], [], [.int ⟨.longLong, false⟩ [.punct] 18446744073709551615], false⟩, [49, 44, 56, 52, 44, 52, 54, 44, 55, 52, 44, 52, 48, 44, 55, 51, 44, 55, 48, 44, 57, 53, 44, 53, 49, 44, 54, 49, 53]),
  /- input_int.cpp 832 -/ (.char, ⟨[[.facet (.numpunct 16) (.numpunct 16 ⟨Numpunct.ctor2 [1], 46, 44⟩)]], [], [.int ⟨.int, true⟩ [.hex, .punct] 0], false⟩, [48]),
  /- input_int.cpp 833 -/ (.char, ⟨[[.facet (.numpunct 16) (.numpunct 16 ⟨Numpunct.ctor2 [1], 46, 44⟩)]], [], [.int ⟨.int, true⟩ [.hex, .punct] 15], false⟩, [102]),
  /- input_int.cpp 834 -/ (.char, ⟨[[.facet (.numpunct 16) (.numpunct 16 ⟨Numpunct.ctor2 [1], 46, 44⟩)]], [], [.int ⟨.int, true⟩ [.hex, .punct] 171], false⟩, [97, 44, 98]),
  /- input_int.cpp 835 -/ (.char, ⟨[[.facet (.numpunct 16) (.numpunct 16 ⟨Numpunct.ctor2 [1], 46, 44⟩)]], [], [.int ⟨.int, true⟩ [.hex, .punct] 2748], false⟩, [97, 44, 98, 44, 99]),
  /- input_int.cpp 837 -/ (.char, ⟨[[.facet (.numpunct 16) (.numpunct 16 ⟨Numpunct.ctor2 [3, 2], 46, 44⟩)]], [], [.int ⟨.int, true⟩ [.hex, .punct] 291], false⟩, [49, 50, 51]),
  /- input_int.cpp 838 -/ (.char, ⟨[[.facet (.numpunct 16) (.numpunct 16 ⟨Numpunct.ctor2 [3, 2], 46, 44⟩)]], [], [.int ⟨.int, true⟩ [.hex, .punct] 4660], false⟩, [49, 44, 50, 51, 52]),
  /- input_int.cpp 839 -/ (.char, ⟨[[.facet (.numpunct 16) (.numpunct 16 ⟨Numpunct.ctor2 [3, 2], 46, 44⟩)]], [], [.int ⟨.int, true⟩ [.hex, .punct] 74565], false⟩, [49, 50, 44, 51, 52, 53]),
  /- input_int.cpp 840 -/ (.char, ⟨[[.facet (.numpunct 16) (.numpunct 16 ⟨Numpunct.ctor2 [3, 2], 46, 44⟩)]], [], [.int ⟨.int, true⟩ [.hex, .punct] 1193046], false⟩, [49, 44, 50, 51, 44, 52, 53, 54]),
  /- input_int.cpp 842 -/ (.char, ⟨[[.facet (.numpunct 16) (.numpunct 16 ⟨Numpunct.ctor2 [3], 46, 44⟩)]], [], [.int ⟨.longLong, false⟩ [.hex, .punct] 1311768467463790320], false⟩, [49, 44, 50, 51, 52, 44, 53, 54, 55, 44, 56, 57, 97, 44, 98, 99, 100, 44, 101, 102, 48]),
  /- input_int.cpp 844 -/ (.char, ⟨[[.facet (.numpunct 16) (.numpunct 16 ⟨Numpunct.ctor2 [3], 46, 44⟩)]], [], [.int ⟨.longLong, false⟩ [.hex, .punct] 81985529216486895], false⟩, [49, 50, 51, 44, 52, 53, 54, 44, 55, 56, 57, 44, 97, 98, 99, 44, 100, 101, 102]),
  /- input_int.cpp 846 -/ (.char, ⟨[[.facet (.numpunct 16) (.numpunct 16 ⟨Numpunct.ctor2 [3], 46, 44⟩)]], [], [.int ⟨.longLong, false⟩ [.hex, .punct] 5124095576030430], false⟩, [49, 50, 44, 51, 52, 53, 44, 54, 55, 56, 44, 57, 97, 98, 44, 99, 100, 101]),
  /- input_int.cpp 848 -/ (.char, ⟨[[.facet (.numpunct 16) (.numpunct 16 ⟨Numpunct.ctor2 [1, 2, 3], 46, 44⟩)]], [], [.int ⟨.longLong, false⟩ [.hex, .punct] 1311768467463790320], false⟩, [49, 44, 50, 51, 52, 44, 53, 54, 55, 44, 56, 57, 97, 44, 98, 99, 100, 44, 101, 102, 44, 48]),
  /- input_int.cpp 850 -/ (.char, ⟨[[.facet (.numpunct 16) (.numpunct 16 ⟨Numpunct.ctor2 [-1], 46, 44⟩)]], [], [.int ⟨.longLong, false⟩ [.hex, .punct] 1311768467463790320], false⟩, [49, 50, 51, 52, 53, 54, 55, 56, 57, 97, 98, 99, 100, 101, 102, 48]),
  /- input_int.cpp 852 -/ (.char, ⟨[[.facet (.numpunct 16) (.numpunct 16 ⟨Numpunct.ctor2 [3, 2, 1, -1], 46, 44⟩)]], [], [.int ⟨.longLong, false⟩ [.hex, .punct] 1311768467463790320], false⟩, [49, 50, 51, 52, 53, 54, 55, 56, 57, 97, 44, 98, 44, 99, 100, 44, 101, 102, 48]),
  /- input_int.cpp 854 -/ (.char, ⟨[[.facet (.numpunct 16) (.numpunct 16 ⟨Numpunct.ctor2 [3, 2, 1], 46, 44⟩)]], [], [.int ⟨.longLong, false⟩ [.hex, .punct] 1311768467463790320], false⟩, [49, 44, 50, 44, 51, 44, 52, 44, 53, 44, 54, 44, 55, 44, 56, 44, 57, 44, 97, 44, 98, 44, 99, 100, 44, 101, 102, 48]),
  /- input_int.cpp 856 -/ (.char, ⟨[[.facet (.numpunct 16) (.numpunct 16 ⟨Numpunct.ctor2 [3, 3, 2, 1], 46, 44⟩)]], [], [.int ⟨.longLong, false⟩ [.hex, .punct] 1311768467463790320], false⟩, [49, 44, 50, 44, 51, 44, 52, 44, 53, 44, 54, 44, 55, 44, 56, 44, 57, 97, 44, 98, 99, 100, 44, 101, 102, 48]),
  /- input_int.cpp 858 -/ (.char, ⟨[[.facet (.numpunct 16) (.numpunct 16 ⟨Numpunct.ctor2 [4, 2], 46, 44⟩)]], [], [.int ⟨.longLong, false⟩ [.hex, .punct] 1311768467463790320], false⟩, [49, 50, 44, 51, 52, 44, 53, 54, 44, 55, 56, 44, 57, 97, 44, 98, 99, 44, 100, 101, 102, 48]),
  /- input_int.cpp 860 -/ (.char, ⟨[[.facet (.numpunct 16) (.numpunct 16 ⟨Numpunct.ctor2 [3, 2], 46, 44⟩)]], [], [.int ⟨.longLong, false⟩ [.hex, .punct] 1311768467463790320], false⟩, [49, 44, 50, 51, 44, 52, 53, 44, 54, 55, 44, 56, 57, 44, 97, 98, 44, 99, 100, 44, 101, 102, 48]),
  /- input_int.cpp 865 -/ (.char, ⟨[[.facet (.numpunct 16) (.numpunct 16 ⟨Numpunct.ctor2 [3], 46, 1114111⟩)]], [], [.int ⟨.longLong, false⟩ [.hex, .punct] 1311768467463790320], false⟩, [49, 244, 143, 191, 191, 50, 51, 52, 244, 143, 191, 191, 53, 54, 55, 244, 143, 191, 191, 56, 57, 97, 244, 143, 191, 191, 98, 99, 100, 244, 143, 191, 191, 101, 102, 48]),
  /- input_int.cpp 870 -/ (.char, ⟨[[.facet (.numpunct 16) (.numpunct 16 ⟨Numpunct.ctor2 [3], 46, 1114111⟩)]], [], [.int ⟨.longLong, false⟩ [.hex, .punct] 81985529216486895], false⟩, [49, 50, 51, 244, 143, 191, 191, 52, 53, 54, 244, 143, 191, 191, 55, 56, 57, 244, 143, 191, 191, 97, 98, 99, 244, 143, 191, 191, 100, 101, 102]),
  /- input_int.cpp 875 -/ (.char, ⟨[[.facet (.numpunct 16) (.numpunct 16 ⟨Numpunct.ctor2 [3], 46, 1114111⟩)]], [], [.int ⟨.longLong, false⟩ [.hex, .punct] 5124095576030430], false⟩, [49, 50, 244, 143, 191, 191, 51, 52, 53, 244, 143, 191, 191, 54, 55, 56, 244, 143, 191, 191, 57, 97, 98, 244, 143, 191, 191, 99, 100, 101]),
  /- input_int.cpp 880 -/ (.char, ⟨[[.facet (.numpunct 16) (.numpunct 16 ⟨Numpunct.ctor2 [1, 2, 3], 46, 1114111⟩)]], [], [.int ⟨.longLong, false⟩ [.hex, .punct] 1311768467463790320], false⟩, [49, 244, 143, 191, 191, 50, 51, 52, 244, 143, 191, 191, 53, 54, 55, 244, 143, 191, 191, 56, 57, 97, 244, 143, 191, 191, 98, 99, 100, 244, 143, 191, 191, 101, 102, 244, 143, 191, 191, 48]),
  /- input_int.cpp 887 -/ (.char, ⟨[[.facet (.numpunct 8) (.numpunct 8 ⟨Numpunct.ctor2 [1], 46, 44⟩)]], [], [.int ⟨.int, true⟩ [.oct, .punct] 0], false⟩, [48]),
  /- input_int.cpp 888 -/ (.char, ⟨[[.facet (.numpunct 8) (.numpunct 8 ⟨Numpunct.ctor2 [1], 46, 44⟩)]], [], [.int ⟨.int, true⟩ [.oct, .punct] 7], false⟩, [55]),
  /- input_int.cpp 889 -/ (.char, ⟨[[.facet (.numpunct 8) (.numpunct 8 ⟨Numpunct.ctor2 [1], 46, 44⟩)]], [], [.int ⟨.int, true⟩ [.oct, .punct] 10], false⟩, [49, 44, 50]),
  /- input_int.cpp 890 -/ (.char, ⟨[[.facet (.numpunct 8) (.numpunct 8 ⟨Numpunct.ctor2 [1], 46, 44⟩)]], [], [.int ⟨.int, true⟩ [.oct, .punct] 83], false⟩, [49, 44, 50, 44, 51]),
  /- input_int.cpp 892 -/ (.char, ⟨[[.facet (.numpunct 8) (.numpunct 8 ⟨Numpunct.ctor2 [3, 2], 46, 44⟩)]], [], [.int ⟨.int, true⟩ [.oct, .punct] 83], false⟩, [49, 50, 51]),
  /- input_int.cpp 893 -/ (.char, ⟨[[.facet (.numpunct 8) (.numpunct 8 ⟨Numpunct.ctor2 [3, 2], 46, 44⟩)]], [], [.int ⟨.int, true⟩ [.oct, .punct] 668], false⟩, [49, 44, 50, 51, 52]),
  /- input_int.cpp 894 -/ (.char, ⟨[[.facet (.numpunct 8) (.numpunct 8 ⟨Numpunct.ctor2 [3, 2], 46, 44⟩)]], [], [.int ⟨.int, true⟩ [.oct, .punct] 5349], false⟩, [49, 50, 44, 51, 52, 53])] = true := by decide +kernel

set_option maxRecDepth 100000 in
example : allPrint [
  /- input_int.cpp 895 -/ (.char, ⟨[[.facet (.numpunct 8) (.numpunct 8 ⟨Numpunct.ctor2 [3, 2], 46, 44⟩)]], [], [.int ⟨.int, true⟩ [.oct, .punct] 42798], false⟩, [49, 44, 50, 51, 44, 52, 53, 54]),
  /- input_int.cpp 897 -/ (.char, ⟨[[.facet (.numpunct 8) (.numpunct 8 ⟨Numpunct.ctor2 [3], 46, 44⟩)]], [], [.int ⟨.longLong, false⟩ [.oct, .punct] 45954964020682], false⟩, [49, 44, 50, 51, 52, 44, 53, 54, 55, 44, 49, 50, 51, 44, 52, 53, 54, 44, 55, 49, 50]),
  /- input_int.cpp 899 -/ (.char, ⟨[[.facet (.numpunct 8) (.numpunct 8 ⟨Numpunct.ctor2 [3], 46, 44⟩)]], [], [.int ⟨.longLong, false⟩ [.oct, .punct] 5744370502585], false⟩, [49, 50, 51, 44, 52, 53, 54, 44, 55, 49, 50, 44, 51, 52, 53, 44, 54, 55, 49]),
  /- input_int.cpp 901 -/ (.char, ⟨[[.facet (.numpunct 8) (.numpunct 8 ⟨Numpunct.ctor2 [3], 46, 44⟩)]], [], [.int ⟨.longLong, false⟩ [.oct, .punct] 718046312823], false⟩, [49, 50, 44, 51, 52, 53, 44, 54, 55, 49, 44, 50, 51, 52, 44, 53, 54, 55]),
  /- input_int.cpp 903 -/ (.char, ⟨[[.facet (.numpunct 8) (.numpunct 8 ⟨Numpunct.ctor2 [1, 2, 3], 46, 44⟩)]], [], [.int ⟨.longLong, false⟩ [.oct, .punct] 718046312823], false⟩, [49, 50, 44, 51, 52, 53, 44, 54, 55, 49, 44, 50, 51, 52, 44, 53, 54, 44, 55]),
  /- input_int.cpp 905 -/ (.char, ⟨[[.facet (.numpunct 8) (.numpunct 8 ⟨Numpunct.ctor2 [-1], 46, 44⟩)]], [], [.int ⟨.longLong, false⟩ [.oct, .punct] 342391], false⟩, [49, 50, 51, 52, 53, 54, 55]),
  /- input_int.cpp 907 -/ (.char, ⟨[[.facet (.numpunct 8) (.numpunct 8 ⟨Numpunct.ctor2 [3, 2, 1, -1], 46, 44⟩)]], [], [.int ⟨.longLong, false⟩ [.oct, .punct] 718046312823], false⟩, [49, 50, 51, 52, 53, 54, 55, 49, 44, 50, 44, 51, 52, 44, 53, 54, 55]),
  /- input_int.cpp 909 -/ (.char, ⟨[[.facet (.numpunct 8) (.numpunct 8 ⟨Numpunct.ctor2 [3, 2, 1], 46, 44⟩)]], [], [.int ⟨.longLong, false⟩ [.oct, .punct] 718046312823], false⟩, [49, 44, 50, 44, 51, 44, 52, 44, 53, 44, 54, 44, 55, 44, 49, 44, 50, 44, 51, 52, 44, 53, 54, 55]),
  /- input_int.cpp 910 -/ (.char, ⟨[[.facet (.numpunct 8) (.numpunct 8 ⟨Numpunct.ctor2 [3, 3, 2, 1], 46, 44⟩)]], [], [.int ⟨.longLong, false⟩ [.oct, .punct] 718046312823], false⟩, [49, 44, 50, 44, 51, 44, 52, 44, 53, 44, 54, 44, 55, 49, 44, 50, 51, 52, 44, 53, 54, 55]),
  /- input_int.cpp 911 -/ (.char, ⟨[[.facet (.numpunct 8) (.numpunct 8 ⟨Numpunct.ctor2 [4, 2], 46, 44⟩)]], [], [.int ⟨.int, true⟩ [.oct, .punct] 342391], false⟩, [49, 44, 50, 51, 44, 52, 53, 54, 55]),
  /- input_int.cpp 912 -/ (.char, ⟨[[.facet (.numpunct 8) (.numpunct 8 ⟨Numpunct.ctor2 [3, 2], 46, 44⟩)]], [], [.int ⟨.int, true⟩ [.oct, .punct] 342391], false⟩, [49, 50, 44, 51, 52, 44, 53, 54, 55]),
  /- input_int.cpp 917 -/ (.char, ⟨[[.facet (.numpunct 2) (.numpunct 2 ⟨Numpunct.ctor2 [1], 46, 39⟩)]], [], [.int ⟨.int, true⟩ [.bin, .punct] 0], false⟩, [48]),
  /- input_int.cpp 918 -/ (.char, ⟨[[.facet (.numpunct 2) (.numpunct 2 ⟨Numpunct.ctor2 [1], 46, 39⟩)]], [], [.int ⟨.int, true⟩ [.bin, .punct] 2], false⟩, [49, 39, 48]),
  /- input_int.cpp 919 -/ (.char, ⟨[[.facet (.numpunct 2) (.numpunct 2 ⟨Numpunct.ctor2 [1], 46, 39⟩)]], [], [.int ⟨.int, true⟩ [.bin, .punct] 10], false⟩, [49, 39, 48, 39, 49, 39, 48]),
  /- input_int.cpp 920 -/ (.char, ⟨[[.facet (.numpunct 2) (.numpunct 2 ⟨Numpunct.ctor2 [2, 2, 4], 46, 39⟩)]], [], [.int ⟨.int, true⟩ [.bin, .punct] 43690], false⟩, [49, 48, 49, 48, 39, 49, 48, 49, 48, 39, 49, 48, 49, 48, 39, 49, 48, 39, 49, 48]),
  /- input_int.cpp 921 -/ (.char, ⟨[[.facet (.numpunct 2) (.numpunct 2 ⟨Numpunct.ctor2 [2, 2, 4], 46, 39⟩)]], [], [.int ⟨.int, true⟩ [.bin, .punct] 10922], false⟩, [49, 48, 39, 49, 48, 49, 48, 39, 49, 48, 49, 48, 39, 49, 48, 39, 49, 48]),
  /- input_int.cpp 922 -/ (.char, ⟨[[.facet (.numpunct 2) (.numpunct 2 ⟨Numpunct.ctor2 [2, 2, 4], 46, 39⟩)]], [], [.int ⟨.int, true⟩ [.bin, .punct] 5461], false⟩, [49, 39, 48, 49, 48, 49, 39, 48, 49, 48, 49, 39, 48, 49, 39, 48, 49]),
  /- input_int.cpp 936 -/ (.char, ⟨[[.facet (.numpunct 2) (.numpunct 2 ⟨Numpunct.ctor2 [1], 46, 1114111⟩)]], [], [.int ⟨.int, true⟩ [.bin, .punct] 0], false⟩, [48]),
  /- input_int.cpp 937 -/ (.char, ⟨[[.facet (.numpunct 2) (.numpunct 2 ⟨Numpunct.ctor2 [1], 46, 1114111⟩)]], [], [.int ⟨.int, true⟩ [.bin, .punct] 2], false⟩, [49, 244, 143, 191, 191, 48]),
  /- input_int.cpp 938 -/ (.char, ⟨[[.facet (.numpunct 2) (.numpunct 2 ⟨Numpunct.ctor2 [1], 46, 1114111⟩)]], [], [.int ⟨.int, true⟩ [.bin, .punct] 10], false⟩, [49, 244, 143, 191, 191, 48, 244, 143, 191, 191, 49, 244, 143, 191, 191, 48]),
  /- input_int.cpp 940 -/ (.char, ⟨[[.facet (.numpunct 2) (.numpunct 2 ⟨Numpunct.ctor2 [2, 2, 4], 46, 1114111⟩)]], [], [.int ⟨.int, true⟩ [.bin, .punct] 43690], false⟩, [49, 48, 49, 48, 244, 143, 191, 191, 49, 48, 49, 48, 244, 143, 191, 191, 49, 48, 49, 48, 244, 143, 191, 191, 49, 48, 244, 143, 191, 191, 49, 48]),
  /- input_int.cpp 943 -/ (.char, ⟨[[.facet (.numpunct 2) (.numpunct 2 ⟨Numpunct.ctor2 [2, 2, 4], 46, 1114111⟩)]], [], [.int ⟨.int, true⟩ [.bin, .punct] 10922], false⟩, [49, 48, 244, 143, 191, 191, 49, 48, 49, 48, 244, 143, 191, 191, 49, 48, 49, 48, 244, 143, 191, 191, 49, 48, 244, 143, 191, 191, 49, 48]),
  /- input_int.cpp 946 -/ (.char, ⟨[[.facet (.numpunct 2) (.numpunct 2 ⟨Numpunct.ctor2 [2, 2, 4], 46, 1114111⟩)]], [], [.int ⟨.int, true⟩ [.bin, .punct] 5461], false⟩, [49, 244, 143, 191, 191, 48, 49, 48, 49, 244, 143, 191, 191, 48, 49, 48, 49, 244, 143, 191, 191, 48, 49, 244, 143, 191, 191, 48, 49]),
  /- input_int.cpp 977 -/ (.char, ⟨[[.facet (.numpunct 10) (.numpunct 10 ⟨Numpunct.ctor2 [3], 46, 1114111⟩)]], [], [.int ⟨.int, true⟩ [.align (.right 524288), .punct, .plus] 1000], false⟩, [32, 32, 43, 49, 244, 143, 191, 191, 48, 48, 48]),
  /- input_int.cpp 978 -/ (.char, ⟨[[.facet (.numpunct 10) (.numpunct 10 ⟨Numpunct.ctor2 [3], 46, 1114111⟩)]], [], [.alignedJoin ⟨32, .right, 524288⟩ [.int ⟨.int, true⟩ [.dec, .punct, .plus] 1000]], false⟩, [32, 32, 43, 49, 244, 143, 191, 191, 48, 48, 48]),
  /- input_int.cpp 979 -/ (.char, ⟨[[.facet (.numpunct 10) (.numpunct 10 ⟨Numpunct.ctor2 [3], 46, 1114111⟩)]], [], [.alignedJoin ⟨32, .right, 524288⟩ [.str .char [] [45, 45, 45, 45], .int ⟨.int, true⟩ [.dec, .punct, .plus] 1000]], false⟩, [45, 45, 45, 45, 43, 49, 244, 143, 191, 191, 48, 48, 48]),
  /- input_int.cpp 984 -/ (.char, ⟨[[.facet (.numpunct 16) (.numpunct 16 ⟨Numpunct.ctor2 [3], 46, 39⟩)]], [], [.int ⟨.int, true⟩ [.hex, .punct, .star, .align (.right 524288)] 0], false⟩, [32, 32, 32, 32, 32, 48, 120, 48]),
  /- input_int.cpp 985 -/ (.char, ⟨[[.facet (.numpunct 16) (.numpunct 16 ⟨Numpunct.ctor2 [3], 46, 39⟩)]], [], [.int ⟨.int, true⟩ [.hex, .punct, .star, .align (.right 524288)] 256], false⟩, [32, 32, 32, 48, 120, 49, 48, 48]),
  /- input_int.cpp 986 -/ (.char, ⟨[[.facet (.numpunct 16) (.numpunct 16 ⟨Numpunct.ctor2 [3], 46, 39⟩)]], [], [.int ⟨.int, true⟩ [.hex, .punct, .star, .align (.right 524288)] 4096], false⟩, [32, 48, 120, 49, 39, 48, 48, 48]),
  /- input_int.cpp 987 -/ (.char, ⟨[[.facet (.numpunct 16) (.numpunct 16 ⟨Numpunct.ctor2 [3], 46, 39⟩)]], [], [.int ⟨.int, true⟩ [.hex, .punct, .align (.right 524288)] 4096], false⟩, [32, 32, 32, 49, 39, 48, 48, 48]),
  /- input_int.cpp 989 -/ (.char, ⟨[[.facet (.numpunct 16) (.numpunct 16 ⟨Numpunct.ctor2 [3], 46, 39⟩)]], [], [.alignedJoin ⟨32, .right, 524288⟩ [.int ⟨.int, true⟩ [.hex, .punct, .star] 0]], false⟩, [32, 32, 32, 32, 32, 48, 120, 48]),
  /- input_int.cpp 990 -/ (.char, ⟨[[.facet (.numpunct 16) (.numpunct 16 ⟨Numpunct.ctor2 [3], 46, 39⟩)]], [], [.alignedJoin ⟨32, .right, 524288⟩ [.int ⟨.int, true⟩ [.hex, .punct, .star] 256]], false⟩, [32, 32, 32, 48, 120, 49, 48, 48]),
  /- input_int.cpp 991 -/ (.char, ⟨[[.facet (.numpunct 16) (.numpunct 16 ⟨Numpunct.ctor2 [3], 46, 39⟩)]], [], [.alignedJoin ⟨32, .right, 524288⟩ [.int ⟨.int, true⟩ [.hex, .punct, .star] 4096]], false⟩, [32, 48, 120, 49, 39, 48, 48, 48]),
  /- input_int.cpp 993 -/ (.char, ⟨[[.facet (.numpunct 16) (.numpunct 16 ⟨Numpunct.ctor2 [3], 46, 39⟩)]], [], [.alignedJoin ⟨32, .right, 524288⟩ [.int ⟨.int, true⟩ [.hex, .punct, .star] 0]], false⟩, [32, 32, 32, 32, 32, 48, 120, 48]),
  /- input_int.cpp 994 -/ (.char, ⟨[[.facet (.numpunct 16) (.numpunct 16 ⟨Numpunct.ctor2 [3], 46, 39⟩)]], [], [.alignedJoin ⟨32, .right, 524288⟩ [.int ⟨.int, true⟩ [.hex, .punct, .star] 256]], false⟩, [32, 32, 32, 48, 120, 49, 48, 48]),
  /- input_int.cpp 995 -/ (.char, ⟨[[.facet (.numpunct 16) (.numpunct 16 ⟨Numpunct.ctor2 [3], 46, 39⟩)]], [], [.alignedJoin ⟨32, .right, 524288⟩ [.int ⟨.int, true⟩ [.hex, .punct, .star] 4096]], false⟩, [32, 48, 120, 49, 39, 48, 48, 48]),
  /- input_int.cpp 1000 -/ (.char, ⟨[[.facet (.numpunct 2) (.numpunct 2 ⟨Numpunct.ctor2 [3], 46, 39⟩)]], [], [.int ⟨.int, true⟩ [.bin, .punct, .star, .align (.right 524288)] 0], false⟩, [32, 32, 32, 32, 32, 48, 98, 48]),
  /- input_int.cpp 1001 -/ (.char, ⟨[[.facet (.numpunct 2) (.numpunct 2 ⟨Numpunct.ctor2 [3], 46, 39⟩)]], [], [.int ⟨.int, true⟩ [.bin, .punct, .star, .align (.right 524288)] 4], false⟩, [32, 32, 32, 48, 98, 49, 48, 48]),
  /- input_int.cpp 1002 -/ (.char, ⟨[[.facet (.numpunct 2) (.numpunct 2 ⟨Numpunct.ctor2 [3], 46, 39⟩)]], [], [.int ⟨.int, true⟩ [.bin, .punct, .star, .align (.right 524288)] 8], false⟩, [32, 48, 98, 49, 39, 48, 48, 48]),
  /- input_int.cpp 1003 -/ (.char, ⟨[[.facet (.numpunct 2) (.numpunct 2 ⟨Numpunct.ctor2 [3], 46, 39⟩)]], [], [.int ⟨.int, true⟩ [.bin, .punct, .align (.right 524288)] 8], false⟩, [32, 32, 32, 49, 39, 48, 48, 48])] = true := by decide +kernel

set_option maxRecDepth 100000 in
example : allPrint [
  /- input_int.cpp 1005 -/ (.char, ⟨[[.facet (.numpunct 2) (.numpunct 2 ⟨Numpunct.ctor2 [3], 46, 39⟩)]], [], [.alignedJoin ⟨32, .right, 524288⟩ [.int ⟨.int, true⟩ [.bin, .punct, .star] 0]], false⟩, [32, 32, 32, 32, 32, 48, 98, 48]),
  /- input_int.cpp 1006 -/ (.char, ⟨[[.facet (.numpunct 2) (.numpunct 2 ⟨Numpunct.ctor2 [3], 46, 39⟩)]], [], [.alignedJoin ⟨32, .right, 524288⟩ [.int ⟨.int, true⟩ [.bin, .punct, .star] 4]], false⟩, [32, 32, 32, 48, 98, 49, 48, 48]),
  /- input_int.cpp 1007 -/ (.char, ⟨[[.facet (.numpunct 2) (.numpunct 2 ⟨Numpunct.ctor2 [3], 46, 39⟩)]], [], [.alignedJoin ⟨32, .right, 524288⟩ [.int ⟨.int, true⟩ [.bin, .punct, .star] 8]], false⟩, [32, 48, 98, 49, 39, 48, 48, 48]),
  /- input_int.cpp 1009 -/ (.char, ⟨[[.facet (.numpunct 2) (.numpunct 2 ⟨Numpunct.ctor2 [3], 46, 39⟩)]], [], [.alignedJoin ⟨32, .right, 524288⟩ [.int ⟨.int, true⟩ [.bin, .punct, .star] 0]], false⟩, [32, 32, 32, 32, 32, 48, 98, 48]),
  /- input_int.cpp 1010 -/ (.char, ⟨[[.facet (.numpunct 2) (.numpunct 2 ⟨Numpunct.ctor2 [3], 46, 39⟩)]], [], [.alignedJoin ⟨32, .right, 524288⟩ [.int ⟨.int, true⟩ [.bin, .punct, .star] 4]], false⟩, [32, 32, 32, 48, 98, 49, 48, 48]),
  /- input_int.cpp 1011 -/ (.char, ⟨[[.facet (.numpunct 2) (.numpunct 2 ⟨Numpunct.ctor2 [3], 46, 39⟩)]], [], [.alignedJoin ⟨32, .right, 524288⟩ [.int ⟨.int, true⟩ [.bin, .punct, .star] 8]], false⟩, [32, 48, 98, 49, 39, 48, 48, 48]),
  /- input_int.cpp 1016 -/ (.char, ⟨[[.facet (.numpunct 16) (.numpunct 16 ⟨Numpunct.ctor2 [3], 46, 1114111⟩)]], [], [.int ⟨.int, true⟩ [.hex, .punct, .star, .align (.right 524288)] 4096], false⟩, [32, 48, 120, 49, 244, 143, 191, 191, 48, 48, 48]),
  /- input_int.cpp 1017 -/ (.char, ⟨[[.facet (.numpunct 16) (.numpunct 16 ⟨Numpunct.ctor2 [3], 46, 1114111⟩)]], [], [.alignedJoin ⟨32, .right, 524288⟩ [.int ⟨.int, true⟩ [.hex, .punct, .star, .align (.right 524288)] 4096]], false⟩, [32, 48, 120, 49, 244, 143, 191, 191, 48, 48, 48]),
  /- input_int.cpp 1018 -/ (.char, ⟨[[.facet (.numpunct 16) (.numpunct 16 ⟨Numpunct.ctor2 [3], 46, 1114111⟩)]], [], [.alignedJoin ⟨32, .right, 524288⟩ [.str .char [] [45, 45, 45], .int ⟨.int, true⟩ [.hex, .punct, .star] 4096]], false⟩, [45, 45, 45, 48, 120, 49, 244, 143, 191, 191, 48, 48, 48]),
  /- input_int.cpp 1023 -/ (.char, ⟨[[.facet (.numpunct 8) (.numpunct 8 ⟨Numpunct.ctor2 [1], 46, 39⟩)]], [], [.int ⟨.longLong, false⟩ [.oct, .punct] 18446744073709551615], false⟩, [49, 39, 55, 39, 55, 39, 55, 39, 55, 39, 55, 39, 55, 39, 55, 39, 55, 39, 55, 39, 55, 39, 55, 39, 55, 39, 55, 39, 55, 39, 55, 39, 55, 39, 55, 39, 55, 39, 55, 39, 55, 39, 55]),
  /- input_int.cpp 1036 -/ (.char, ⟨[[.facet (.numpunct 8) (.numpunct 8 ⟨Numpunct.ctor2 [1], 46, 1114111⟩)]], [], [.int ⟨.longLong, false⟩ [.oct, .punct] 18446744073709551615], false⟩, [49, 244, 143, 191, 191, 55, 244, 143, 191, 191, 55, 244, 143, 191, 191, 55, 244, 143, 191, 191, 55, 244, 143, 191, 191, 55, 244, 143, 191, 191, 55, 244, 143, 191, 191, 55, 244, 143, 191, 191, 55, 244, 143, 191, 191, 55, 244, 143, 191, 191, 55, 244, 143, 191, 191, 55, 244, 143, 191, 191, 55, 244, 143, 191, 191, 55, 244, 143, 191, 191, 55, 244, 143, 191, 191, 55, 244, 143, 191, 191, 55, 244, 143, 191, 191, 55, 244, 143, 191, 191, 55, 244, 143, 191, 191, 55, 244, 143, 191, 191, 55, 244, 143, 191, 191, 55]),
  /- input_int.cpp 1042 -/ (.char, ⟨[[.facet (.numpunct 8) (.numpunct 8 ⟨Numpunct.ctor2 [3], 46, 1114111⟩)]], [], [.int ⟨.int, true⟩ [.oct, .punct, .star, .align (.right 524288)] 512], false⟩, [32, 32, 48, 49, 244, 143, 191, 191, 48, 48, 48]),
  /- input_int.cpp 1043 -/ (.char, ⟨[[.facet (.numpunct 8) (.numpunct 8 ⟨Numpunct.ctor2 [3], 46, 1114111⟩)]], [], [.alignedJoin ⟨32, .right, 524288⟩ [.int ⟨.int, true⟩ [.oct, .punct, .star] 512]], false⟩, [32, 32, 48, 49, 244, 143, 191, 191, 48, 48, 48]),
  /- input_int.cpp 1044 -/ (.char, ⟨[[.facet (.numpunct 8) (.numpunct 8 ⟨Numpunct.ctor2 [3], 46, 1114111⟩)]], [], [.alignedJoin ⟨32, .right, 524288⟩ [.str .char [] [45, 45, 45, 45], .int ⟨.int, true⟩ [.oct, .punct, .star] 512]], false⟩, [45, 45, 45, 45, 48, 49, 244, 143, 191, 191, 48, 48, 48]),
  /- input_int.cpp 1047 -/ (.char, ⟨[[.facet (.numpunct 2) (.numpunct 2 ⟨Numpunct.ctor2 [1], 46, 1114111⟩)]], [], [.int ⟨.int, true⟩ [.bin, .punct] 15], false⟩, [49, 244, 143, 191, 191, 49, 244, 143, 191, 191, 49, 244, 143, 191, 191, 49]),
  /- input_int.cpp 1050 -/ (.char, ⟨[[.facet (.numpunct 2) (.numpunct 2 ⟨Numpunct.ctor2 [8], 46, 1114111⟩)]], [], [.int ⟨.int, true⟩ [.bin, .punct] 109226], false⟩, [49, 244, 143, 191, 191, 49, 48, 49, 48, 49, 48, 49, 48, 244, 143, 191, 191, 49, 48, 49, 48, 49, 48, 49, 48]),
  /- input_int.cpp 1053 -/ (.char, ⟨[[.facet (.numpunct 2) (.numpunct 2 ⟨Numpunct.ctor2 [1], 46, 39⟩)]], [], [.int ⟨.int, true⟩ [.bin, .punct] 15], false⟩, [49, 39, 49, 39, 49, 39, 49]),
  /- input_int.cpp 1056 -/ (.char, ⟨[[.facet (.numpunct 2) (.numpunct 2 ⟨Numpunct.ctor2 [8], 46, 39⟩)]], [], [.int ⟨.int, true⟩ [.bin, .punct] 109226], false⟩, [49, 39, 49, 48, 49, 48, 49, 48, 49, 48, 39, 49, 48, 49, 48, 49, 48, 49, 48]),
  /- input_int.cpp 1059 -/ (.char, ⟨[[.facet (.numpunct 2) (.numpunct 2 ⟨Numpunct.ctor2 [4], 46, 1114111⟩)]], [], [.int ⟨.longLong, false⟩ [.bin, .punct] 12297829382473034410], false⟩, [49, 48, 49, 48, 244, 143, 191, 191, 49, 48, 49, 48, 244, 143, 191, 191, 49, 48, 49, 48, 244, 143, 191, 191, 49, 48, 49, 48, 244, 143, 191, 191, 49, 48, 49, 48, 244, 143, 191, 191, 49, 48, 49, 48, 244, 143, 191, 191, 49, 48, 49, 48, 244, 143, 191, 191, 49, 48, 49, 48, 244, 143, 191, 191, 49, 48, 49, 48, 244, 143, 191, 191, 49, 48, 49, 48, 244, 143, 191, 191, 49, 48, 49, 48, 244, 143, 191, 191, 49, 48, 49, 48, 244, 143, 191, 191, 49, 48, 49, 48, 244, 143, 191, 191, 49, 48, 49, 48, 244, 143, 191, 191, 49, 48, 49, 48, 244, 143, 191, 191, 49, 48, 49, 48]),
  /- input_int.cpp 1070 -/ (.char, ⟨[[.facet (.numpunct 10) (.numpunct 10 ⟨Numpunct.ctor2 [1], 46, 16777215⟩)]], [], [.int ⟨.int, true⟩ [.dec, .punct] 9999], false⟩, [57, 57, 57, 57]),
  /- input_int.cpp 1074 -/ (.char, ⟨[[.facet (.numpunct 10) (.numpunct 10 ⟨Numpunct.ctor2 [1], 46, 16777215⟩)]], [], [.int ⟨.int, true⟩ [.hex, .punct] 65535], false⟩, [102, 102, 102, 102]),
  /- input_int.cpp 1078 -/ (.char, ⟨[[.facet (.numpunct 10) (.numpunct 10 ⟨Numpunct.ctor2 [1], 46, 16777215⟩)]], [], [.int ⟨.int, true⟩ [.oct, .punct] 4095], false⟩, [55, 55, 55, 55]),
  /- input_int.cpp 1082 -/ (.char, ⟨[[.facet (.numpunct 2) (.numpunct 2 ⟨Numpunct.ctor2 [1], 46, 16777215⟩)]], [], [.int ⟨.int, true⟩ [.bin, .punct] 15], false⟩, [49, 49, 49, 49]),
  /- input_int.cpp 1088 -/ (.char, ⟨[], [], [.int ⟨.longLong, false⟩ [.base 16] 18446744073709551615], false⟩, [102, 102, 102, 102, 102, 102, 102, 102, 102, 102, 102, 102, 102, 102, 102, 102]),
  /- input_int.cpp 1089 -/ (.char, ⟨[], [], [.int ⟨.longLong, true⟩ [.base 8] 9223372036854775807], false⟩, [55, 55, 55, 55, 55, 55, 55, 55, 55, 55, 55, 55, 55, 55, 55, 55, 55, 55, 55, 55, 55]),
  /- input_int.cpp 1090 -/ (.char, ⟨[], [], [.int ⟨.longLong, false⟩ [.base 2] 18446744073709551615], false⟩, [49, 49, 49, 49, 49, 49, 49, 49, 49, 49, 49, 49, 49, 49, 49, 49, 49, 49, 49, 49, 49, 49, 49, 49, 49, 49, 49, 49, 49, 49, 49, 49, 49, 49, 49, 49, 49, 49, 49, 49, 49, 49, 49, 49, 49, 49, 49, 49, 49, 49, 49, 49, 49, 49, 49, 49, 49, 49, 49, 49, 49, 49, 49, 49]),
  /- input_int.cpp 1092 -/ (.char, ⟨[], [], [.int ⟨.longLong, true⟩ [.hex, .base 10] 999999999999999999], false⟩, [57, 57, 57, 57, 57, 57, 57, 57, 57, 57, 57, 57, 57, 57, 57, 57, 57, 57]),
  /- input_int.cpp 1095 -/ (.char, ⟨[[.facet (.numpunct 16) (.numpunct 16 ⟨Numpunct.ctor2 [4], 46, 39⟩)]], [], [.int ⟨.longLong, false⟩ [.punct, .base 16] 18446744073709551615], false⟩, [102, 102, 102, 102, 39, 102, 102, 102, 102, 39, 102, 102, 102, 102, 39, 102, 102, 102, 102]),
  /- input_int.cpp 1099 -/ (.char, ⟨[[.facet (.numpunct 8) (.numpunct 8 ⟨Numpunct.ctor2 [3], 46, 39⟩)]], [], [.int ⟨.longLong, true⟩ [.punct, .base 8] 9223372036854775807], false⟩, [55, 55, 55, 39, 55, 55, 55, 39, 55, 55, 55, 39, 55, 55, 55, 39, 55, 55, 55, 39, 55, 55, 55, 39, 55, 55, 55]),
  /- input_int.cpp 1103 -/ (.char, ⟨[[.facet (.numpunct 2) (.numpunct 2 ⟨Numpunct.ctor2 [8], 46, 39⟩)]], [], [.int ⟨.longLong, false⟩ [.punct, .base 2, .punct] 18446744073709551615], false⟩, [49, 49, 49, 49, 49, 49, 49, 49, 39, 49, 49, 49, 49, 49, 49, 49, 49, 39, 49, 49, 49, 49, 49, 49, 49, 49, 39, 49, 49, 49, 49, 49, 49, 49, 49, 39, 49, 49, 49, 49, 49, 49, 49, 49, 39, 49, 49, 49, 49, 49, 49, 49, 49, 39, 49, 49, 49, 49, 49, 49, 49, 49, 39, 49, 49, 49, 49, 49, 49, 49, 49]),
  /- input_int.cpp 1107 -/ (.char, ⟨[[.facet (.numpunct 10) (.numpunct 10 ⟨Numpunct.ctor2 [3], 46, 39⟩)]], [], [.int ⟨.longLong, true⟩ [.hex, .base 10, .punct] 999999999999999999], false⟩, [57, 57, 57, 39, 57, 57, 57, 39, 57, 57, 57, 39, 57, 57, 57, 39, 57, 57, 57, 39, 57, 57, 57]),
  /- input_float.cpp 159 -/ (.char, ⟨[], [.pack []], [.alignedJoin ⟨95, .right, 1310720⟩ [.float .double [] 9218868437227405313]], false⟩, [95, 95, 95, 95, 95, 95, 95, 95, 95, 95, 95, 95, 95, 95, 95, 95, 95, 110, 97, 110]),
  /- input_float.cpp 160 -/ (.char, ⟨[], [.pack []], [.alignedJoin ⟨95, .right, 1310720⟩ [.float .double [] 9218868437227405312]], false⟩, [95, 95, 95, 95, 95, 95, 95, 95, 95, 95, 95, 95, 95, 95, 95, 95, 95, 105, 110, 102]),
  /- input_float.cpp 161 -/ (.char, ⟨[], [.pack []], [.alignedJoin ⟨95, .right, 1310720⟩ [.float .double [] 18442240474082181120]], false⟩, [95, 95, 95, 95, 95, 95, 95, 95, 95, 95, 95, 95, 95, 95, 95, 95, 45, 105, 110, 102]),
  /- input_float.cpp 163 -/ (.char, ⟨[], [.pack []], [.alignedJoin ⟨95, .right, 1310720⟩ [.float .double [] 18442240474082181121]], false⟩, [95, 95, 95, 95, 95, 95, 95, 95, 95, 95, 95, 95, 95, 95, 95, 95, 45, 110, 97, 110]),
  /- input_float.cpp 164 -/ (.char, ⟨[], [.pack []], [.alignedJoin ⟨95, .right, 1310720⟩ [.float .double [.plus] 9218868437227405313]], false⟩, [95, 95, 95, 95, 95, 95, 95, 95, 95, 95, 95, 95, 95, 95, 95, 95, 43, 110, 97, 110]),
  /- input_float.cpp 165 -/ (.char, ⟨[], [.pack []], [.alignedJoin ⟨95, .right, 1310720⟩ [.float .double [.plus] 9218868437227405312]], false⟩, [95, 95, 95, 95, 95, 95, 95, 95, 95, 95, 95, 95, 95, 95, 95, 95, 43, 105, 110, 102]),
  /- input_float.cpp 166 -/ (.char, ⟨[], [.pack []], [.alignedJoin ⟨95, .right, 1310720⟩ [.float .double [.plus] 9218868437227405312]], false⟩, [95, 95, 95, 95, 95, 95, 95, 95, 95, 95, 95, 95, 95, 95, 95, 95, 43, 105, 110, 102]),
  /- input_float.cpp 167 -/ (.char, ⟨[], [.pack []], [.alignedJoin ⟨95, .right, 1310720⟩ [.float .double [] 18442240474082181120]], false⟩, [95, 95, 95, 95, 95, 95, 95, 95, 95, 95, 95, 95, 95, 95, 95, 95, 45, 105, 110, 102]),
  /- input_float.cpp 168 -/ (.char, ⟨[], [.pack []], [.alignedJoin ⟨95, .right, 1310720⟩ [.float .double [.plus] 18442240474082181120]], false⟩, [95, 95, 95, 95, 95, 95, 95, 95, 95, 95, 95, 95, 95, 95, 95, 95, 45, 105, 110, 102])] = true := by decide +kernel

set_option maxRecDepth 100000 in
example : allPrint [
  /- input_float.cpp 170 -/ (.char, ⟨[], [.pack []], [.alignedJoin ⟨95, .right, 1310720⟩ [.float .double [.fixed] 18442240474082181121]], false⟩, [95, 95, 95, 95, 95, 95, 95, 95, 95, 95, 95, 95, 95, 95, 95, 95, 45, 110, 97, 110]),
  /- input_float.cpp 171 -/ (.char, ⟨[], [.pack []], [.alignedJoin ⟨95, .right, 1310720⟩ [.float .double [.fixed] 9218868437227405313]], false⟩, [95, 95, 95, 95, 95, 95, 95, 95, 95, 95, 95, 95, 95, 95, 95, 95, 95, 110, 97, 110]),
  /- input_float.cpp 172 -/ (.char, ⟨[], [.pack []], [.alignedJoin ⟨95, .right, 1310720⟩ [.float .double [.fixed, .plus] 9218868437227405313]], false⟩, [95, 95, 95, 95, 95, 95, 95, 95, 95, 95, 95, 95, 95, 95, 95, 95, 43, 110, 97, 110]),
  /- input_float.cpp 173 -/ (.char, ⟨[], [.pack []], [.alignedJoin ⟨95, .right, 1310720⟩ [.float .double [.fixed] 9218868437227405312]], false⟩, [95, 95, 95, 95, 95, 95, 95, 95, 95, 95, 95, 95, 95, 95, 95, 95, 95, 105, 110, 102]),
  /- input_float.cpp 174 -/ (.char, ⟨[], [.pack []], [.alignedJoin ⟨95, .right, 1310720⟩ [.float .double [.fixed, .plus] 9218868437227405312]], false⟩, [95, 95, 95, 95, 95, 95, 95, 95, 95, 95, 95, 95, 95, 95, 95, 95, 43, 105, 110, 102]),
  /- input_float.cpp 175 -/ (.char, ⟨[], [.pack []], [.alignedJoin ⟨95, .right, 1310720⟩ [.float .double [.fixed] 18442240474082181120]], false⟩, [95, 95, 95, 95, 95, 95, 95, 95, 95, 95, 95, 95, 95, 95, 95, 95, 45, 105, 110, 102]),
  /- input_float.cpp 176 -/ (.char, ⟨[], [.pack []], [.alignedJoin ⟨95, .right, 1310720⟩ [.float .double [.fixed, .plus] 18442240474082181120]], false⟩, [95, 95, 95, 95, 95, 95, 95, 95, 95, 95, 95, 95, 95, 95, 95, 95, 45, 105, 110, 102]),
  /- input_float.cpp 178 -/ (.char, ⟨[], [.pack []], [.alignedJoin ⟨95, .right, 1310720⟩ [.float .double [.sci] 18442240474082181121]], false⟩, [95, 95, 95, 95, 95, 95, 95, 95, 95, 95, 95, 95, 95, 95, 95, 95, 45, 110, 97, 110]),
  /- input_float.cpp 179 -/ (.char, ⟨[], [.pack []], [.alignedJoin ⟨95, .right, 1310720⟩ [.float .double [.sci] 9218868437227405313]], false⟩, [95, 95, 95, 95, 95, 95, 95, 95, 95, 95, 95, 95, 95, 95, 95, 95, 95, 110, 97, 110]),
  /- input_float.cpp 180 -/ (.char, ⟨[], [.pack []], [.alignedJoin ⟨95, .right, 1310720⟩ [.float .double [.sci, .plus] 9218868437227405313]], false⟩, [95, 95, 95, 95, 95, 95, 95, 95, 95, 95, 95, 95, 95, 95, 95, 95, 43, 110, 97, 110]),
  /- input_float.cpp 181 -/ (.char, ⟨[], [.pack []], [.alignedJoin ⟨95, .right, 1310720⟩ [.float .double [.sci] 9218868437227405312]], false⟩, [95, 95, 95, 95, 95, 95, 95, 95, 95, 95, 95, 95, 95, 95, 95, 95, 95, 105, 110, 102]),
  /- input_float.cpp 182 -/ (.char, ⟨[], [.pack []], [.alignedJoin ⟨95, .right, 1310720⟩ [.float .double [.sci, .plus] 9218868437227405312]], false⟩, [95, 95, 95, 95, 95, 95, 95, 95, 95, 95, 95, 95, 95, 95, 95, 95, 43, 105, 110, 102]),
  /- input_float.cpp 183 -/ (.char, ⟨[], [.pack []], [.alignedJoin ⟨95, .right, 1310720⟩ [.float .double [.sci] 18442240474082181120]], false⟩, [95, 95, 95, 95, 95, 95, 95, 95, 95, 95, 95, 95, 95, 95, 95, 95, 45, 105, 110, 102]),
  /- input_float.cpp 184 -/ (.char, ⟨[], [.pack []], [.alignedJoin ⟨95, .right, 1310720⟩ [.float .double [.sci, .plus] 18442240474082181120]], false⟩, [95, 95, 95, 95, 95, 95, 95, 95, 95, 95, 95, 95, 95, 95, 95, 95, 45, 105, 110, 102]),
  /- input_float.cpp 186 -/ (.char, ⟨[], [.pack []], [.alignedJoin ⟨95, .right, 1310720⟩ [.float .double [.hex] 9218868437227405313]], false⟩, [95, 95, 95, 95, 95, 95, 95, 95, 95, 95, 95, 95, 95, 95, 95, 95, 95, 110, 97, 110]),
  /- input_float.cpp 187 -/ (.char, ⟨[], [.pack []], [.alignedJoin ⟨95, .right, 1310720⟩ [.float .double [.hex] 18442240474082181121]], false⟩, [95, 95, 95, 95, 95, 95, 95, 95, 95, 95, 95, 95, 95, 95, 95, 95, 45, 110, 97, 110]),
  /- input_float.cpp 188 -/ (.char, ⟨[], [.pack []], [.alignedJoin ⟨95, .right, 1310720⟩ [.float .double [.hex, .plus] 9218868437227405313]], false⟩, [95, 95, 95, 95, 95, 95, 95, 95, 95, 95, 95, 95, 95, 95, 95, 95, 43, 110, 97, 110]),
  /- input_float.cpp 189 -/ (.char, ⟨[], [.pack []], [.alignedJoin ⟨95, .right, 1310720⟩ [.float .double [.hex] 9218868437227405312]], false⟩, [95, 95, 95, 95, 95, 95, 95, 95, 95, 95, 95, 95, 95, 95, 95, 95, 95, 105, 110, 102]),
  /- input_float.cpp 190 -/ (.char, ⟨[], [.pack []], [.alignedJoin ⟨95, .right, 1310720⟩ [.float .double [.hex, .plus] 9218868437227405312]], false⟩, [95, 95, 95, 95, 95, 95, 95, 95, 95, 95, 95, 95, 95, 95, 95, 95, 43, 105, 110, 102]),
  /- input_float.cpp 191 -/ (.char, ⟨[], [.pack []], [.alignedJoin ⟨95, .right, 1310720⟩ [.float .double [.hex] 18442240474082181120]], false⟩, [95, 95, 95, 95, 95, 95, 95, 95, 95, 95, 95, 95, 95, 95, 95, 95, 45, 105, 110, 102]),
  /- input_float.cpp 192 -/ (.char, ⟨[], [.pack []], [.alignedJoin ⟨95, .right, 1310720⟩ [.float .double [.hex, .plus] 18442240474082181120]], false⟩, [95, 95, 95, 95, 95, 95, 95, 95, 95, 95, 95, 95, 95, 95, 95, 95, 45, 105, 110, 102]),
  /- input_float.cpp 194 -/ (.char, ⟨[], [.pack []], [.alignedJoin ⟨95, .right, 1310720⟩ [.float .double [.align (.set 126 589824 .right)] 18442240474082181121]], false⟩, [95, 95, 95, 95, 95, 95, 95, 95, 95, 95, 95, 126, 126, 126, 126, 126, 45, 110, 97, 110]),
  /- input_float.cpp 195 -/ (.char, ⟨[], [.pack []], [.alignedJoin ⟨95, .right, 1310720⟩ [.float .double [.align (.set 126 589824 .left), .plus] 9218868437227405313]], false⟩, [95, 95, 95, 95, 95, 95, 95, 95, 95, 95, 95, 43, 110, 97, 110, 126, 126, 126, 126, 126]),
  /- input_float.cpp 196 -/ (.char, ⟨[], [.pack []], [.alignedJoin ⟨95, .right, 1310720⟩ [.float .double [.align (.set 126 589824 .center), .plus] 9218868437227405313]], false⟩, [95, 95, 95, 95, 95, 95, 95, 95, 95, 95, 95, 126, 126, 43, 110, 97, 110, 126, 126, 126]),
  /- input_float.cpp 197 -/ (.char, ⟨[], [.pack []], [.alignedJoin ⟨95, .right, 1310720⟩ [.float .double [.align (.set 126 589824 .right), .plus] 9218868437227405313]], false⟩, [95, 95, 95, 95, 95, 95, 95, 95, 95, 95, 95, 126, 126, 126, 126, 126, 43, 110, 97, 110]),
  /- input_float.cpp 198 -/ (.char, ⟨[], [.pack []], [.alignedJoin ⟨95, .right, 1310720⟩ [.float .double [.align (.set 126 589824 .left), .plus] 9218868437227405313]], false⟩, [95, 95, 95, 95, 95, 95, 95, 95, 95, 95, 95, 43, 110, 97, 110, 126, 126, 126, 126, 126]),
  /- input_float.cpp 199 -/ (.char, ⟨[], [.pack []], [.alignedJoin ⟨95, .right, 1310720⟩ [.float .double [.align (.set 126 589824 .center), .plus] 9218868437227405313]], false⟩, [95, 95, 95, 95, 95, 95, 95, 95, 95, 95, 95, 126, 126, 43, 110, 97, 110, 126, 126, 126]),
  /- input_float.cpp 202 -/ (.char, ⟨[], [.pack []], [.alignedJoin ⟨95, .right, 1310720⟩ [.float .double [.align (.set 126 589824 .right), .plus] 9218868437227405312]], false⟩, [95, 95, 95, 95, 95, 95, 95, 95, 95, 95, 95, 126, 126, 126, 126, 126, 43, 105, 110, 102]),
  /- input_float.cpp 203 -/ (.char, ⟨[], [.pack []], [.alignedJoin ⟨95, .right, 1310720⟩ [.float .double [.align (.set 126 589824 .left), .plus] 9218868437227405312]], false⟩, [95, 95, 95, 95, 95, 95, 95, 95, 95, 95, 95, 43, 105, 110, 102, 126, 126, 126, 126, 126]),
  /- input_float.cpp 204 -/ (.char, ⟨[], [.pack []], [.alignedJoin ⟨95, .right, 1310720⟩ [.float .double [.align (.set 126 589824 .center), .plus] 9218868437227405312]], false⟩, [95, 95, 95, 95, 95, 95, 95, 95, 95, 95, 95, 126, 126, 43, 105, 110, 102, 126, 126, 126]),
  /- input_float.cpp 205 -/ (.char, ⟨[], [.pack []], [.alignedJoin ⟨95, .right, 1310720⟩ [.float .double [.align (.set 126 589824 .right), .hex, .plus] 9218868437227405312]], false⟩, [95, 95, 95, 95, 95, 95, 95, 95, 95, 95, 95, 126, 126, 126, 126, 126, 43, 105, 110, 102]),
  /- input_float.cpp 206 -/ (.char, ⟨[], [.pack []], [.alignedJoin ⟨95, .right, 1310720⟩ [.float .double [.align (.set 126 589824 .left), .hex, .plus] 9218868437227405312]], false⟩, [95, 95, 95, 95, 95, 95, 95, 95, 95, 95, 95, 43, 105, 110, 102, 126, 126, 126, 126, 126]),
  /- input_float.cpp 207 -/ (.char, ⟨[], [.pack []], [.alignedJoin ⟨95, .right, 1310720⟩ [.float .double [.align (.set 126 589824 .center), .hex, .plus] 9218868437227405312]], false⟩, [95, 95, 95, 95, 95, 95, 95, 95, 95, 95, 95, 126, 126, 43, 105, 110, 102, 126, 126, 126]),
  /- input_float.cpp 209 -/ (.char, ⟨[], [.pack []], [.alignedJoin ⟨95, .right, 1310720⟩ [.float .double [.pad0 9, .hex] 18442240474082181120]], false⟩, [95, 95, 95, 95, 95, 95, 95, 95, 95, 95, 95, 32, 32, 32, 32, 32, 45, 105, 110, 102]),
  /- input_float.cpp 210 -/ (.char, ⟨[], [.pack []], [.alignedJoin ⟨95, .right, 1310720⟩ [.float .double [.pad0 9, .hex, .plus] 9218868437227405312]], false⟩, [95, 95, 95, 95, 95, 95, 95, 95, 95, 95, 95, 32, 32, 32, 32, 32, 43, 105, 110, 102])] = true := by decide +kernel

end Strf.Program
