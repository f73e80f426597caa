import Verif.Conformance.Base
/-! Generated by tools/conformance.py from /repo/tests: see Verif/Conformance/Base.lean. Tests of the model, not proofs. -/
namespace Strf.Program
open Strf.Format

set_option maxRecDepth 100000 in
example : allPrint [
  /- input_float.cpp 612 -/ (.char, ⟨[], [], [.alignedJoin ⟨95, .right, 1638400⟩ [.float .double [.hex] 4611685468671574016]], false⟩, [95, 95, 95, 95, 95, 95, 95, 95, 95, 95, 95, 95, 95, 95, 48, 120, 49, 46, 102, 102, 102, 56, 112, 43, 48]),
  /- input_float.cpp 613 -/ (.char, ⟨[], [], [.alignedJoin ⟨95, .right, 1638400⟩ [.float .double [.hex] 4611685743549480960]], false⟩, [95, 95, 95, 95, 95, 95, 95, 95, 95, 95, 95, 95, 95, 95, 48, 120, 49, 46, 102, 102, 102, 99, 112, 43, 48]),
  /- input_float.cpp 614 -/ (.char, ⟨[], [], [.alignedJoin ⟨95, .right, 1638400⟩ [.float .double [.hex] 4611685880988434432]], false⟩, [95, 95, 95, 95, 95, 95, 95, 95, 95, 95, 95, 95, 95, 95, 48, 120, 49, 46, 102, 102, 102, 101, 112, 43, 48]),
  /- input_float.cpp 615 -/ (.char, ⟨[], [], [.alignedJoin ⟨95, .right, 1638400⟩ [.float .double [.hex] 4611685949707911168]], false⟩, [95, 95, 95, 95, 95, 95, 95, 95, 95, 95, 95, 95, 95, 95, 48, 120, 49, 46, 102, 102, 102, 102, 112, 43, 48]),
  /- input_float.cpp 616 -/ (.char, ⟨[], [], [.alignedJoin ⟨95, .right, 1638400⟩ [.float .double [.hex] 4611685984067649536]], false⟩, [95, 95, 95, 95, 95, 95, 95, 95, 95, 95, 95, 95, 95, 48, 120, 49, 46, 102, 102, 102, 102, 56, 112, 43, 48]),
  /- input_float.cpp 617 -/ (.char, ⟨[], [], [.alignedJoin ⟨95, .right, 1638400⟩ [.float .double [.hex] 4611686001247518720]], false⟩, [95, 95, 95, 95, 95, 95, 95, 95, 95, 95, 95, 95, 95, 48, 120, 49, 46, 102, 102, 102, 102, 99, 112, 43, 48]),
  /- input_float.cpp 618 -/ (.char, ⟨[], [], [.alignedJoin ⟨95, .right, 1638400⟩ [.float .double [.hex] 4611686009837453312]], false⟩, [95, 95, 95, 95, 95, 95, 95, 95, 95, 95, 95, 95, 95, 48, 120, 49, 46, 102, 102, 102, 102, 101, 112, 43, 48]),
  /- input_float.cpp 619 -/ (.char, ⟨[], [], [.alignedJoin ⟨95, .right, 1638400⟩ [.float .double [.hex] 4611686014132420608]], false⟩, [95, 95, 95, 95, 95, 95, 95, 95, 95, 95, 95, 95, 95, 48, 120, 49, 46, 102, 102, 102, 102, 102, 112, 43, 48]),
  /- input_float.cpp 620 -/ (.char, ⟨[], [], [.alignedJoin ⟨95, .right, 1638400⟩ [.float .double [.hex] 4611686016279904256]], false⟩, [95, 95, 95, 95, 95, 95, 95, 95, 95, 95, 95, 95, 48, 120, 49, 46, 102, 102, 102, 102, 102, 56, 112, 43, 48]),
  /- input_float.cpp 621 -/ (.char, ⟨[], [], [.alignedJoin ⟨95, .right, 1638400⟩ [.float .double [.hex] 4611686017353646080]], false⟩, [95, 95, 95, 95, 95, 95, 95, 95, 95, 95, 95, 95, 48, 120, 49, 46, 102, 102, 102, 102, 102, 99, 112, 43, 48]),
  /- input_float.cpp 622 -/ (.char, ⟨[], [], [.alignedJoin ⟨95, .right, 1638400⟩ [.float .double [.hex] 4611686017890516992]], false⟩, [95, 95, 95, 95, 95, 95, 95, 95, 95, 95, 95, 95, 48, 120, 49, 46, 102, 102, 102, 102, 102, 101, 112, 43, 48]),
  /- input_float.cpp 623 -/ (.char, ⟨[], [], [.alignedJoin ⟨95, .right, 1638400⟩ [.float .double [.hex] 4611686018158952448]], false⟩, [95, 95, 95, 95, 95, 95, 95, 95, 95, 95, 95, 95, 48, 120, 49, 46, 102, 102, 102, 102, 102, 102, 112, 43, 48]),
  /- input_float.cpp 624 -/ (.char, ⟨[], [], [.alignedJoin ⟨95, .right, 1638400⟩ [.float .double [.hex] 4611686018293170176]], false⟩, [95, 95, 95, 95, 95, 95, 95, 95, 95, 95, 95, 48, 120, 49, 46, 102, 102, 102, 102, 102, 102, 56, 112, 43, 48]),
  /- input_float.cpp 625 -/ (.char, ⟨[], [], [.alignedJoin ⟨95, .right, 1638400⟩ [.float .double [.hex] 4611686018360279040]], false⟩, [95, 95, 95, 95, 95, 95, 95, 95, 95, 95, 95, 48, 120, 49, 46, 102, 102, 102, 102, 102, 102, 99, 112, 43, 48]),
  /- input_float.cpp 626 -/ (.char, ⟨[], [], [.alignedJoin ⟨95, .right, 1638400⟩ [.float .double [.hex] 4611686018393833472]], false⟩, [95, 95, 95, 95, 95, 95, 95, 95, 95, 95, 95, 48, 120, 49, 46, 102, 102, 102, 102, 102, 102, 101, 112, 43, 48]),
  /- input_float.cpp 627 -/ (.char, ⟨[], [], [.alignedJoin ⟨95, .right, 1638400⟩ [.float .double [.hex] 4611686018410610688]], false⟩, [95, 95, 95, 95, 95, 95, 95, 95, 95, 95, 95, 48, 120, 49, 46, 102, 102, 102, 102, 102, 102, 102, 112, 43, 48]),
  /- input_float.cpp 628 -/ (.char, ⟨[], [], [.alignedJoin ⟨95, .right, 1638400⟩ [.float .double [.hex] 4611686018418999296]], false⟩, [95, 95, 95, 95, 95, 95, 95, 95, 95, 95, 48, 120, 49, 46, 102, 102, 102, 102, 102, 102, 102, 56, 112, 43, 48]),
  /- input_float.cpp 629 -/ (.char, ⟨[], [], [.alignedJoin ⟨95, .right, 1638400⟩ [.float .double [.hex] 4611686018423193600]], false⟩, [95, 95, 95, 95, 95, 95, 95, 95, 95, 95, 48, 120, 49, 46, 102, 102, 102, 102, 102, 102, 102, 99, 112, 43, 48]),
  /- input_float.cpp 630 -/ (.char, ⟨[], [], [.alignedJoin ⟨95, .right, 1638400⟩ [.float .double [.hex] 4611686018425290752]], false⟩, [95, 95, 95, 95, 95, 95, 95, 95, 95, 95, 48, 120, 49, 46, 102, 102, 102, 102, 102, 102, 102, 101, 112, 43, 48]),
  /- input_float.cpp 631 -/ (.char, ⟨[], [], [.alignedJoin ⟨95, .right, 1638400⟩ [.float .double [.hex] 4611686018426339328]], false⟩, [95, 95, 95, 95, 95, 95, 95, 95, 95, 95, 48, 120, 49, 46, 102, 102, 102, 102, 102, 102, 102, 102, 112, 43, 48]),
  /- input_float.cpp 632 -/ (.char, ⟨[], [], [.alignedJoin ⟨95, .right, 1638400⟩ [.float .double [.hex] 4611686018426863616]], false⟩, [95, 95, 95, 95, 95, 95, 95, 95, 95, 48, 120, 49, 46, 102, 102, 102, 102, 102, 102, 102, 102, 56, 112, 43, 48]),
  /- input_float.cpp 633 -/ (.char, ⟨[], [], [.alignedJoin ⟨95, .right, 1638400⟩ [.float .double [.hex] 4611686018427125760]], false⟩, [95, 95, 95, 95, 95, 95, 95, 95, 95, 48, 120, 49, 46, 102, 102, 102, 102, 102, 102, 102, 102, 99, 112, 43, 48]),
  /- input_float.cpp 634 -/ (.char, ⟨[], [], [.alignedJoin ⟨95, .right, 1638400⟩ [.float .double [.hex] 4611686018427256832]], false⟩, [95, 95, 95, 95, 95, 95, 95, 95, 95, 48, 120, 49, 46, 102, 102, 102, 102, 102, 102, 102, 102, 101, 112, 43, 48]),
  /- input_float.cpp 635 -/ (.char, ⟨[], [], [.alignedJoin ⟨95, .right, 1638400⟩ [.float .double [.hex] 4611686018427322368]], false⟩, [95, 95, 95, 95, 95, 95, 95, 95, 95, 48, 120, 49, 46, 102, 102, 102, 102, 102, 102, 102, 102, 102, 112, 43, 48]),
  /- input_float.cpp 636 -/ (.char, ⟨[], [], [.alignedJoin ⟨95, .right, 1638400⟩ [.float .double [.hex] 4611686018427355136]], false⟩, [95, 95, 95, 95, 95, 95, 95, 95, 48, 120, 49, 46, 102, 102, 102, 102, 102, 102, 102, 102, 102, 56, 112, 43, 48]),
  /- input_float.cpp 637 -/ (.char, ⟨[], [], [.alignedJoin ⟨95, .right, 1638400⟩ [.float .double [.hex] 4611686018427371520]], false⟩, [95, 95, 95, 95, 95, 95, 95, 95, 48, 120, 49, 46, 102, 102, 102, 102, 102, 102, 102, 102, 102, 99, 112, 43, 48]),
  /- input_float.cpp 638 -/ (.char, ⟨[], [], [.alignedJoin ⟨95, .right, 1638400⟩ [.float .double [.hex] 4611686018427379712]], false⟩, [95, 95, 95, 95, 95, 95, 95, 95, 48, 120, 49, 46, 102, 102, 102, 102, 102, 102, 102, 102, 102, 101, 112, 43, 48]),
  /- input_float.cpp 639 -/ (.char, ⟨[], [], [.alignedJoin ⟨95, .right, 1638400⟩ [.float .double [.hex] 4611686018427383808]], false⟩, [95, 95, 95, 95, 95, 95, 95, 95, 48, 120, 49, 46, 102, 102, 102, 102, 102, 102, 102, 102, 102, 102, 112, 43, 48]),
  /- input_float.cpp 640 -/ (.char, ⟨[], [], [.alignedJoin ⟨95, .right, 1638400⟩ [.float .double [.hex] 4611686018427385856]], false⟩, [95, 95, 95, 95, 95, 95, 95, 48, 120, 49, 46, 102, 102, 102, 102, 102, 102, 102, 102, 102, 102, 56, 112, 43, 48]),
  /- input_float.cpp 641 -/ (.char, ⟨[], [], [.alignedJoin ⟨95, .right, 1638400⟩ [.float .double [.hex] 4611686018427386880]], false⟩, [95, 95, 95, 95, 95, 95, 95, 48, 120, 49, 46, 102, 102, 102, 102, 102, 102, 102, 102, 102, 102, 99, 112, 43, 48]),
  /- input_float.cpp 642 -/ (.char, ⟨[], [], [.alignedJoin ⟨95, .right, 1638400⟩ [.float .double [.hex] 4611686018427387392]], false⟩, [95, 95, 95, 95, 95, 95, 95, 48, 120, 49, 46, 102, 102, 102, 102, 102, 102, 102, 102, 102, 102, 101, 112, 43, 48]),
  /- input_float.cpp 643 -/ (.char, ⟨[], [], [.alignedJoin ⟨95, .right, 1638400⟩ [.float .double [.hex] 4611686018427387648]], false⟩, [95, 95, 95, 95, 95, 95, 95, 48, 120, 49, 46, 102, 102, 102, 102, 102, 102, 102, 102, 102, 102, 102, 112, 43, 48]),
  /- input_float.cpp 644 -/ (.char, ⟨[], [], [.alignedJoin ⟨95, .right, 1638400⟩ [.float .double [.hex] 4611686018427387776]], false⟩, [95, 95, 95, 95, 95, 95, 48, 120, 49, 46, 102, 102, 102, 102, 102, 102, 102, 102, 102, 102, 102, 56, 112, 43, 48]),
  /- input_float.cpp 645 -/ (.char, ⟨[], [], [.alignedJoin ⟨95, .right, 1638400⟩ [.float .double [.hex] 4611686018427387840]], false⟩, [95, 95, 95, 95, 95, 95, 48, 120, 49, 46, 102, 102, 102, 102, 102, 102, 102, 102, 102, 102, 102, 99, 112, 43, 48]),
  /- input_float.cpp 646 -/ (.char, ⟨[], [], [.alignedJoin ⟨95, .right, 1638400⟩ [.float .double [.hex] 4611686018427387872]], false⟩, [95, 95, 95, 95, 95, 95, 48, 120, 49, 46, 102, 102, 102, 102, 102, 102, 102, 102, 102, 102, 102, 101, 112, 43, 48]),
  /- input_float.cpp 647 -/ (.char, ⟨[], [], [.alignedJoin ⟨95, .right, 1638400⟩ [.float .double [.hex] 4611686018427387888]], false⟩, [95, 95, 95, 95, 95, 95, 48, 120, 49, 46, 102, 102, 102, 102, 102, 102, 102, 102, 102, 102, 102, 102, 112, 43, 48]),
  /- input_float.cpp 648 -/ (.char, ⟨[], [], [.alignedJoin ⟨95, .right, 1638400⟩ [.float .double [.hex] 4611686018427387896]], false⟩, [95, 95, 95, 95, 95, 48, 120, 49, 46, 102, 102, 102, 102, 102, 102, 102, 102, 102, 102, 102, 102, 56, 112, 43, 48]),
  /- input_float.cpp 649 -/ (.char, ⟨[], [], [.alignedJoin ⟨95, .right, 1638400⟩ [.float .double [.hex] 4611686018427387900]], false⟩, [95, 95, 95, 95, 95, 48, 120, 49, 46, 102, 102, 102, 102, 102, 102, 102, 102, 102, 102, 102, 102, 99, 112, 43, 48]),
  /- input_float.cpp 650 -/ (.char, ⟨[], [], [.alignedJoin ⟨95, .right, 1638400⟩ [.float .double [.hex] 4611686018427387902]], false⟩, [95, 95, 95, 95, 95, 48, 120, 49, 46, 102, 102, 102, 102, 102, 102, 102, 102, 102, 102, 102, 102, 101, 112, 43, 48]),
  /- input_float.cpp 651 -/ (.char, ⟨[], [], [.alignedJoin ⟨95, .right, 1638400⟩ [.float .double [.hex] 4611686018427387903]], false⟩, [95, 95, 95, 95, 95, 48, 120, 49, 46, 102, 102, 102, 102, 102, 102, 102, 102, 102, 102, 102, 102, 102, 112, 43, 48])] = true := by decide +kernel

set_option maxRecDepth 100000 in
example : allPrint [
  /- input_float.cpp 652 -/ (.char, ⟨[], [], [.alignedJoin ⟨95, .right, 1638400⟩ [.float .double [.hex] 4607463893776728063]], false⟩, [95, 95, 95, 95, 95, 48, 120, 49, 46, 48, 102, 102, 102, 102, 102, 102, 102, 102, 102, 102, 102, 102, 112, 43, 48]),
  /- input_float.cpp 654 -/ (.char, ⟨[], [], [.alignedJoin ⟨95, .right, 1638400⟩ [.float .double [.hex, .p 0] 4607502673036443648]], false⟩, [95, 95, 95, 95, 95, 95, 95, 95, 95, 95, 95, 95, 95, 95, 95, 95, 95, 95, 95, 48, 120, 49, 112, 43, 48]),
  /- input_float.cpp 655 -/ (.char, ⟨[], [], [.alignedJoin ⟨95, .right, 1638400⟩ [.float .double [.hex, .p 5] 4607502673036443648]], false⟩, [95, 95, 95, 95, 95, 95, 95, 95, 95, 95, 95, 95, 95, 48, 120, 49, 46, 49, 50, 51, 52, 53, 112, 43, 48]),
  /- input_float.cpp 656 -/ (.char, ⟨[], [], [.alignedJoin ⟨95, .right, 1638400⟩ [.float .double [.hex, .p 6] 4607502673036443648]], false⟩, [95, 95, 95, 95, 95, 95, 95, 95, 95, 95, 95, 95, 48, 120, 49, 46, 49, 50, 51, 52, 53, 48, 112, 43, 48]),
  /- input_float.cpp 657 -/ (.char, ⟨[], [], [.alignedJoin ⟨95, .right, 1638400⟩ [.float .double [.hex, .p 0, .star] 4607502673036443648]], false⟩, [95, 95, 95, 95, 95, 95, 95, 95, 95, 95, 95, 95, 95, 95, 95, 95, 95, 95, 48, 120, 49, 46, 112, 43, 48]),
  /- input_float.cpp 658 -/ (.char, ⟨[], [], [.alignedJoin ⟨95, .right, 1638400⟩ [.float .double [.hex, .p 0, .star, .plus] 4607502673036443648]], false⟩, [95, 95, 95, 95, 95, 95, 95, 95, 95, 95, 95, 95, 95, 95, 95, 95, 95, 43, 48, 120, 49, 46, 112, 43, 48]),
  /- input_float.cpp 659 -/ (.char, ⟨[], [], [.alignedJoin ⟨95, .right, 1638400⟩ [.float .double [.hex, .p 3] 549755813888]], false⟩, [95, 95, 95, 95, 95, 95, 95, 95, 95, 95, 95, 95, 48, 120, 48, 46, 48, 48, 48, 112, 45, 49, 48, 50, 50]),
  /- input_float.cpp 660 -/ (.char, ⟨[], [], [.alignedJoin ⟨95, .right, 1638400⟩ [.float .double [.hex, .p 3] 1649267441664]], false⟩, [95, 95, 95, 95, 95, 95, 95, 95, 95, 95, 95, 95, 48, 120, 48, 46, 48, 48, 50, 112, 45, 49, 48, 50, 50]),
  /- input_float.cpp 661 -/ (.char, ⟨[], [], [.alignedJoin ⟨95, .right, 1638400⟩ [.float .double [.hex, .p 3] 549755813889]], false⟩, [95, 95, 95, 95, 95, 95, 95, 95, 95, 95, 95, 95, 48, 120, 48, 46, 48, 48, 49, 112, 45, 49, 48, 50, 50]),
  /- input_float.cpp 663 -/ (.char, ⟨[], [.facet .lettercase (.lettercase .upper)], [.alignedJoin ⟨95, .right, 1638400⟩ [.float .double [.hex] 0]], false⟩, [95, 95, 95, 95, 95, 95, 95, 95, 95, 95, 95, 95, 95, 95, 95, 95, 95, 95, 95, 48, 88, 48, 80, 43, 48]),
  /- input_float.cpp 664 -/ (.char, ⟨[], [.facet .lettercase (.lettercase .upper)], [.alignedJoin ⟨95, .right, 1638400⟩ [.float .double [.hex] 3022415462400000]], false⟩, [95, 95, 95, 95, 95, 95, 95, 95, 95, 48, 88, 48, 46, 65, 66, 67, 68, 69, 70, 80, 45, 49, 48, 50, 50]),
  /- input_float.cpp 665 -/ (.char, ⟨[], [.facet .lettercase (.lettercase .upper)], [.alignedJoin ⟨95, .right, 1638400⟩ [.float .double [.hex] 4655240830536122368]], false⟩, [95, 95, 95, 95, 95, 95, 95, 95, 95, 95, 95, 48, 88, 49, 46, 65, 66, 67, 68, 69, 70, 80, 43, 49, 48]),
  /- input_float.cpp 667 -/ (.char, ⟨[], [.facet .lettercase (.lettercase .mixed)], [.alignedJoin ⟨95, .right, 1638400⟩ [.float .double [.hex] 0]], false⟩, [95, 95, 95, 95, 95, 95, 95, 95, 95, 95, 95, 95, 95, 95, 95, 95, 95, 95, 95, 48, 120, 48, 112, 43, 48]),
  /- input_float.cpp 668 -/ (.char, ⟨[], [.facet .lettercase (.lettercase .mixed)], [.alignedJoin ⟨95, .right, 1638400⟩ [.float .double [.hex] 3022415462400000]], false⟩, [95, 95, 95, 95, 95, 95, 95, 95, 95, 48, 120, 48, 46, 65, 66, 67, 68, 69, 70, 112, 45, 49, 48, 50, 50]),
  /- input_float.cpp 669 -/ (.char, ⟨[], [.facet .lettercase (.lettercase .mixed)], [.alignedJoin ⟨95, .right, 1638400⟩ [.float .double [.hex] 4655240830536122368]], false⟩, [95, 95, 95, 95, 95, 95, 95, 95, 95, 95, 95, 48, 120, 49, 46, 65, 66, 67, 68, 69, 70, 112, 43, 49, 48]),
  /- input_float.cpp 671 -/ (.char, ⟨[], [.facet .lettercase (.lettercase .lower)], [.alignedJoin ⟨95, .right, 1638400⟩ [.float .double [.hex] 0]], false⟩, [95, 95, 95, 95, 95, 95, 95, 95, 95, 95, 95, 95, 95, 95, 95, 95, 95, 95, 95, 48, 120, 48, 112, 43, 48]),
  /- input_float.cpp 672 -/ (.char, ⟨[], [.facet .lettercase (.lettercase .lower)], [.alignedJoin ⟨95, .right, 1638400⟩ [.float .double [.hex] 3022415462400000]], false⟩, [95, 95, 95, 95, 95, 95, 95, 95, 95, 48, 120, 48, 46, 97, 98, 99, 100, 101, 102, 112, 45, 49, 48, 50, 50]),
  /- input_float.cpp 673 -/ (.char, ⟨[], [.facet .lettercase (.lettercase .lower)], [.alignedJoin ⟨95, .right, 1638400⟩ [.float .double [.hex] 4655240830536122368]], false⟩, [95, 95, 95, 95, 95, 95, 95, 95, 95, 95, 95, 48, 120, 49, 46, 97, 98, 99, 100, 101, 102, 112, 43, 49, 48]),
  /- input_float.cpp 675 -/ (.char, ⟨[], [], [.alignedJoin ⟨95, .right, 1638400⟩ [.float .double [.align (.set 42 720896 .left), .hex] 13830554455654793216]], false⟩, [95, 95, 95, 95, 95, 95, 95, 95, 95, 95, 95, 95, 95, 95, 45, 48, 120, 49, 112, 43, 48, 42, 42, 42, 42]),
  /- input_float.cpp 676 -/ (.char, ⟨[], [], [.alignedJoin ⟨95, .right, 1638400⟩ [.float .double [.align (.set 42 720896 .right), .hex] 13830554455654793216]], false⟩, [95, 95, 95, 95, 95, 95, 95, 95, 95, 95, 95, 95, 95, 95, 42, 42, 42, 42, 45, 48, 120, 49, 112, 43, 48]),
  /- input_float.cpp 677 -/ (.char, ⟨[], [], [.alignedJoin ⟨95, .right, 1638400⟩ [.float .double [.align (.set 42 720896 .center), .hex] 13830554455654793216]], false⟩, [95, 95, 95, 95, 95, 95, 95, 95, 95, 95, 95, 95, 95, 95, 42, 42, 45, 48, 120, 49, 112, 43, 48, 42, 42]),
  /- input_float.cpp 678 -/ (.char, ⟨[], [], [.alignedJoin ⟨95, .right, 1638400⟩ [.float .double [.align (.set 42 458752 .center), .hex] 13830554455654793216]], false⟩, [95, 95, 95, 95, 95, 95, 95, 95, 95, 95, 95, 95, 95, 95, 95, 95, 95, 95, 45, 48, 120, 49, 112, 43, 48]),
  /- input_float.cpp 681 -/ (.char, ⟨[], [], [.alignedJoin ⟨95, .right, 1638400⟩ [.float .double [.pad0 11, .hex] 13830554455654793216]], false⟩, [95, 95, 95, 95, 95, 95, 95, 95, 95, 95, 95, 95, 95, 95, 45, 48, 120, 48, 48, 48, 48, 49, 112, 43, 48]),
  /- input_float.cpp 682 -/ (.char, ⟨[], [], [.alignedJoin ⟨95, .right, 1638400⟩ [.float .double [.pad0 11, .hex, .star, .plus] 4607182418800017408]], false⟩, [95, 95, 95, 95, 95, 95, 95, 95, 95, 95, 95, 95, 95, 95, 43, 48, 120, 48, 48, 48, 49, 46, 112, 43, 48]),
  /- input_float.cpp 683 -/ (.char, ⟨[], [], [.alignedJoin ⟨95, .right, 1638400⟩ [.float .double [.hex, .p 6, .pad0 15] 4607502673036443648]], false⟩, [95, 95, 95, 95, 95, 95, 95, 95, 95, 95, 48, 120, 48, 48, 49, 46, 49, 50, 51, 52, 53, 48, 112, 43, 48]),
  /- input_float.cpp 684 -/ (.char, ⟨[], [], [.alignedJoin ⟨95, .right, 1638400⟩ [.float .double [.hex, .p 6, .pad0 15, .align (.fill 42), .align (.center 1245184)] 4607502673036443648]], false⟩, [95, 95, 95, 95, 95, 95, 42, 42, 48, 120, 48, 48, 49, 46, 49, 50, 51, 52, 53, 48, 112, 43, 48, 42, 42]),
  /- input_float.cpp 685 -/ (.char, ⟨[], [], [.alignedJoin ⟨95, .right, 1638400⟩ [.float .double [.hex, .p 6, .pad0 15, .align (.fill 42), .align (.center 983040)] 4607502673036443648]], false⟩, [95, 95, 95, 95, 95, 95, 95, 95, 95, 95, 48, 120, 48, 48, 49, 46, 49, 50, 51, 52, 53, 48, 112, 43, 48]),
  /- input_float.cpp 688 -/ (.char, ⟨[], [], [.alignedJoin ⟨95, .right, 1638400⟩ [.float .double [.hex, .pad0 12] 4612008175334326272]], false⟩, [95, 95, 95, 95, 95, 95, 95, 95, 95, 95, 95, 95, 95, 48, 120, 48, 48, 49, 46, 49, 50, 53, 112, 43, 49]),
  /- input_float.cpp 689 -/ (.char, ⟨[], [], [.alignedJoin ⟨95, .right, 1638400⟩ [.float .double [.hex, .fillSign] 4612008175334326272]], false⟩, [95, 95, 95, 95, 95, 95, 95, 95, 95, 95, 95, 95, 95, 95, 32, 48, 120, 49, 46, 49, 50, 53, 112, 43, 49]),
  /- input_float.cpp 691 -/ (.char, ⟨[], [], [.alignedJoin ⟨95, .right, 1638400⟩ [.float .double [.hex, .pad0 12, .fillSign] 4612008175334326272]], false⟩, [95, 95, 95, 95, 95, 95, 95, 95, 95, 95, 95, 95, 95, 32, 48, 120, 48, 49, 46, 49, 50, 53, 112, 43, 49]),
  /- input_float.cpp 692 -/ (.char, ⟨[], [], [.alignedJoin ⟨95, .right, 1638400⟩ [.float .double [.hex, .pad0 12, .fillSign, .align (.fill 42)] 4612008175334326272]], false⟩, [95, 95, 95, 95, 95, 95, 95, 95, 95, 95, 95, 95, 95, 42, 48, 120, 48, 49, 46, 49, 50, 53, 112, 43, 49]),
  /- input_float.cpp 693 -/ (.char, ⟨[], [], [.alignedJoin ⟨95, .right, 1638400⟩ [.float .double [.align (.set 42 1048576 .right), .hex, .pad0 12, .fillSign] 4612008175334326272]], false⟩, [95, 95, 95, 95, 95, 95, 95, 95, 95, 42, 42, 42, 42, 42, 48, 120, 48, 49, 46, 49, 50, 53, 112, 43, 49]),
  /- input_float.cpp 694 -/ (.char, ⟨[], [], [.alignedJoin ⟨95, .right, 1638400⟩ [.float .double [.align (.set 42 1048576 .center), .hex, .pad0 12, .fillSign] 4612008175334326272]], false⟩, [95, 95, 95, 95, 95, 95, 95, 95, 95, 42, 42, 42, 48, 120, 48, 49, 46, 49, 50, 53, 112, 43, 49, 42, 42]),
  /- input_float.cpp 695 -/ (.char, ⟨[], [], [.alignedJoin ⟨95, .right, 1638400⟩ [.float .double [.align (.set 42 1048576 .left), .hex, .pad0 12, .fillSign] 4612008175334326272]], false⟩, [95, 95, 95, 95, 95, 95, 95, 95, 95, 42, 48, 120, 48, 49, 46, 49, 50, 53, 112, 43, 49, 42, 42, 42, 42]),
  /- input_float.cpp 697 -/ (.char, ⟨[], [], [.alignedJoin ⟨95, .right, 1638400⟩ [.float .double [.align (.set 42 1048576 .right), .hex, .fillSign] 4612008175334326272]], false⟩, [95, 95, 95, 95, 95, 95, 95, 95, 95, 42, 42, 42, 42, 42, 42, 48, 120, 49, 46, 49, 50, 53, 112, 43, 49]),
  /- input_float.cpp 698 -/ (.char, ⟨[], [], [.alignedJoin ⟨95, .right, 1638400⟩ [.float .double [.align (.set 42 1048576 .center), .hex, .fillSign] 4612008175334326272]], false⟩, [95, 95, 95, 95, 95, 95, 95, 95, 95, 42, 42, 42, 48, 120, 49, 46, 49, 50, 53, 112, 43, 49, 42, 42, 42]),
  /- input_float.cpp 699 -/ (.char, ⟨[], [], [.alignedJoin ⟨95, .right, 1638400⟩ [.float .double [.align (.set 42 1048576 .left), .hex, .fillSign] 4612008175334326272]], false⟩, [95, 95, 95, 95, 95, 95, 95, 95, 95, 42, 48, 120, 49, 46, 49, 50, 53, 112, 43, 49, 42, 42, 42, 42, 42]),
  /- input_float.cpp 725 -/ (.char, ⟨[], [.facet (.numpunct 10) (.numpunct 10 ⟨Numpunct.ctor2 [3], 44, 58⟩)], [.alignedJoin ⟨95, .right, 1310720⟩ [.float .double [.punct] 4652011706887700480]], false⟩, [95, 95, 95, 95, 95, 95, 95, 95, 95, 95, 95, 95, 95, 49, 58, 48, 48, 48, 44, 53]),
  /- input_float.cpp 726 -/ (.char, ⟨[], [.facet (.numpunct 10) (.numpunct 10 ⟨Numpunct.ctor2 [3], 44, 58⟩)], [.alignedJoin ⟨95, .right, 1310720⟩ [.float .double [.punct] 5357498594607601382]], false⟩, [95, 95, 95, 95, 95, 95, 95, 95, 95, 95, 95, 95, 95, 49, 44, 53, 101, 43, 53, 48]),
  /- input_float.cpp 727 -/ (.char, ⟨[], [.facet (.numpunct 10) (.numpunct 10 ⟨Numpunct.ctor2 [3], 44, 58⟩)], [.alignedJoin ⟨95, .right, 1310720⟩ [.float .double [.fixed, .p 2, .punct] 4652011706887700480]], false⟩, [95, 95, 95, 95, 95, 95, 95, 95, 95, 95, 95, 95, 49, 58, 48, 48, 48, 44, 53, 48])] = true := by decide +kernel

set_option maxRecDepth 100000 in
example : allPrint [
  /- input_float.cpp 728 -/ (.char, ⟨[], [.facet (.numpunct 10) (.numpunct 10 ⟨Numpunct.ctor2 [3], 44, 58⟩)], [.alignedJoin ⟨95, .right, 1310720⟩ [.float .double [.p 6, .punct, .star] 4652011706887700480]], false⟩, [95, 95, 95, 95, 95, 95, 95, 95, 95, 95, 95, 95, 49, 58, 48, 48, 48, 44, 53, 48]),
  /- input_float.cpp 729 -/ (.char, ⟨[], [.facet (.numpunct 10) (.numpunct 10 ⟨Numpunct.ctor2 [3], 44, 58⟩)], [.alignedJoin ⟨95, .right, 1310720⟩ [.float .double [.p 6, .punct] 4652011706887700480]], false⟩, [95, 95, 95, 95, 95, 95, 95, 95, 95, 95, 95, 95, 95, 49, 58, 48, 48, 48, 44, 53]),
  /- input_float.cpp 730 -/ (.char, ⟨[], [.facet (.numpunct 10) (.numpunct 10 ⟨Numpunct.ctor2 [3], 44, 58⟩)], [.alignedJoin ⟨95, .right, 1310720⟩ [.float .double [.sci, .p 2, .punct] 5357498594607601382]], false⟩, [95, 95, 95, 95, 95, 95, 95, 95, 95, 95, 95, 95, 49, 44, 53, 48, 101, 43, 53, 48]),
  /- input_float.cpp 731 -/ (.char, ⟨[], [.facet (.numpunct 10) (.numpunct 10 ⟨Numpunct.ctor2 [3], 44, 58⟩)], [.alignedJoin ⟨95, .right, 1310720⟩ [.float .double [.punct, .star] 4607182418800017408]], false⟩, [95, 95, 95, 95, 95, 95, 95, 95, 95, 95, 95, 95, 95, 95, 95, 95, 95, 95, 49, 44]),
  /- input_float.cpp 733 -/ (.char, ⟨[], [.facet (.numpunct 10) (.numpunct 10 ⟨Numpunct.ctor2 [3], 44, 58⟩)], [.alignedJoin ⟨95, .right, 1310720⟩ [.float .double [.fixed, .punct, .plus, .star] 4696837146684686336]], false⟩, [95, 95, 95, 95, 95, 95, 95, 95, 95, 43, 49, 58, 48, 48, 48, 58, 48, 48, 48, 44]),
  /- input_float.cpp 734 -/ (.char, ⟨[], [.facet (.numpunct 10) (.numpunct 10 ⟨Numpunct.ctor2 [3], 44, 58⟩)], [.alignedJoin ⟨95, .right, 1310720⟩ [.float .double [.fixed, .p 4, .punct, .plus, .star] 4696837146684686336]], false⟩, [95, 95, 95, 95, 95, 43, 49, 58, 48, 48, 48, 58, 48, 48, 48, 44, 48, 48, 48, 48]),
  /- input_float.cpp 735 -/ (.char, ⟨[], [.facet (.numpunct 10) (.numpunct 10 ⟨Numpunct.ctor2 [3], 44, 58⟩)], [.alignedJoin ⟨95, .right, 1310720⟩ [.float .double [.fixed, .pad0 18, .punct, .plus, .star] 4696837146684686336]], false⟩, [95, 95, 43, 48, 48, 48, 48, 48, 48, 48, 49, 58, 48, 48, 48, 58, 48, 48, 48, 44]),
  /- input_float.cpp 738 -/ (.char, ⟨[], [.facet (.numpunct 16) (.numpunct 16 ⟨Numpunct.ctor2 [3], 44, 44⟩)], [.alignedJoin ⟨95, .right, 1310720⟩ [.float .double [.hex, .punct] 4607502673036443648]], false⟩, [95, 95, 95, 95, 95, 95, 95, 95, 48, 120, 49, 44, 49, 50, 51, 52, 53, 112, 43, 48]),
  /- input_float.cpp 743 -/ (.char, ⟨[], [.facet (.numpunct 10) (.numpunct 10 ⟨Numpunct.ctor2 [3], 1114111, 1092266⟩)], [.alignedJoin ⟨95, .right, 1310720⟩ [.float .double [.punct] 4652011706887700480]], false⟩, [95, 95, 95, 95, 95, 95, 95, 95, 95, 95, 95, 95, 95, 49, 244, 138, 170, 170, 48, 48, 48, 244, 143, 191, 191, 53]),
  /- input_float.cpp 744 -/ (.char, ⟨[], [.facet (.numpunct 10) (.numpunct 10 ⟨Numpunct.ctor2 [3], 1114111, 1092266⟩)], [.alignedJoin ⟨95, .right, 1310720⟩ [.float .double [.punct] 5357498594607601382]], false⟩, [95, 95, 95, 95, 95, 95, 95, 95, 95, 95, 95, 95, 95, 49, 244, 143, 191, 191, 53, 101, 43, 53, 48]),
  /- input_float.cpp 745 -/ (.char, ⟨[], [.facet (.numpunct 10) (.numpunct 10 ⟨Numpunct.ctor2 [3], 1114111, 1092266⟩)], [.alignedJoin ⟨95, .right, 1310720⟩ [.float .double [.fixed, .p 2, .punct] 4652011706887700480]], false⟩, [95, 95, 95, 95, 95, 95, 95, 95, 95, 95, 95, 95, 49, 244, 138, 170, 170, 48, 48, 48, 244, 143, 191, 191, 53, 48]),
  /- input_float.cpp 746 -/ (.char, ⟨[], [.facet (.numpunct 10) (.numpunct 10 ⟨Numpunct.ctor2 [3], 1114111, 1092266⟩)], [.alignedJoin ⟨95, .right, 1310720⟩ [.float .double [.sci, .punct, .star] 5355091182177117338]], false⟩, [95, 95, 95, 95, 95, 95, 95, 95, 95, 95, 95, 95, 95, 95, 49, 244, 143, 191, 191, 101, 43, 53, 48]),
  /- input_float.cpp 747 -/ (.char, ⟨[], [.facet (.numpunct 10) (.numpunct 10 ⟨Numpunct.ctor2 [3], 1114111, 1092266⟩)], [.alignedJoin ⟨95, .right, 1310720⟩ [.float .double [.sci, .p 2, .punct] 5357498594607601382]], false⟩, [95, 95, 95, 95, 95, 95, 95, 95, 95, 95, 95, 95, 49, 244, 143, 191, 191, 53, 48, 101, 43, 53, 48]),
  /- input_float.cpp 748 -/ (.char, ⟨[], [.facet (.numpunct 10) (.numpunct 10 ⟨Numpunct.ctor2 [3], 1114111, 1092266⟩)], [.alignedJoin ⟨95, .right, 1310720⟩ [.float .double [.punct, .star] 4607182418800017408]], false⟩, [95, 95, 95, 95, 95, 95, 95, 95, 95, 95, 95, 95, 95, 95, 95, 95, 95, 95, 49, 244, 143, 191, 191]),
  /- input_float.cpp 749 -/ (.char, ⟨[], [.facet (.numpunct 10) (.numpunct 10 ⟨Numpunct.ctor2 [3], 1114111, 1092266⟩)], [.alignedJoin ⟨95, .right, 1310720⟩ [.float .double [.fixed, .punct] 4591870180066957722]], false⟩, [95, 95, 95, 95, 95, 95, 95, 95, 95, 95, 95, 95, 95, 95, 95, 95, 95, 48, 244, 143, 191, 191, 49]),
  /- input_float.cpp 750 -/ (.char, ⟨[], [.facet (.numpunct 10) (.numpunct 10 ⟨Numpunct.ctor2 [3], 1114111, 1092266⟩)], [.alignedJoin ⟨95, .right, 1310720⟩ [.float .double [.punct] 4591870180066957722]], false⟩, [95, 95, 95, 95, 95, 95, 95, 95, 95, 95, 95, 95, 95, 95, 95, 95, 95, 48, 244, 143, 191, 191, 49]),
  /- input_float.cpp 754 -/ (.char, ⟨[], [.facet (.numpunct 16) (.numpunct 16 ⟨Numpunct.ctor2 [3], 1114111, 44⟩)], [.alignedJoin ⟨95, .right, 1310720⟩ [.float .double [.hex, .punct] 4607502673036443648]], false⟩, [95, 95, 95, 95, 95, 95, 95, 95, 48, 120, 49, 244, 143, 191, 191, 49, 50, 51, 52, 53, 112, 43, 48]),
  /- input_float.cpp 762 -/ (.char, ⟨[], [.pack [.facet (.charset .char) (.charset .char ⟨.sbc 3, true⟩), .facet (.numpunct 10) (.numpunct 10 ⟨Numpunct.ctor2 [3], 304, 729⟩)]], [.alignedJoin ⟨95, .right, 1310720⟩ [.float .double [.punct] 4652011706887700480]], false⟩, [95, 95, 95, 95, 95, 95, 95, 95, 95, 95, 95, 95, 95, 49, 255, 48, 48, 48, 169, 53]),
  /- input_float.cpp 763 -/ (.char, ⟨[], [.pack [.facet (.charset .char) (.charset .char ⟨.sbc 3, true⟩), .facet (.numpunct 10) (.numpunct 10 ⟨Numpunct.ctor2 [3], 304, 729⟩)]], [.alignedJoin ⟨95, .right, 1310720⟩ [.float .double [.punct] 5357498594607601382]], false⟩, [95, 95, 95, 95, 95, 95, 95, 95, 95, 95, 95, 95, 95, 49, 169, 53, 101, 43, 53, 48]),
  /- input_float.cpp 764 -/ (.char, ⟨[], [.pack [.facet (.charset .char) (.charset .char ⟨.sbc 3, true⟩), .facet (.numpunct 10) (.numpunct 10 ⟨Numpunct.ctor2 [3], 304, 729⟩)]], [.alignedJoin ⟨95, .right, 1310720⟩ [.float .double [.fixed, .p 2, .punct] 4652011706887700480]], false⟩, [95, 95, 95, 95, 95, 95, 95, 95, 95, 95, 95, 95, 49, 255, 48, 48, 48, 169, 53, 48]),
  /- input_float.cpp 765 -/ (.char, ⟨[], [.pack [.facet (.charset .char) (.charset .char ⟨.sbc 3, true⟩), .facet (.numpunct 10) (.numpunct 10 ⟨Numpunct.ctor2 [3], 304, 729⟩)]], [.alignedJoin ⟨95, .right, 1310720⟩ [.float .double [.sci, .p 2, .punct] 5357498594607601382]], false⟩, [95, 95, 95, 95, 95, 95, 95, 95, 95, 95, 95, 95, 49, 169, 53, 48, 101, 43, 53, 48]),
  /- input_float.cpp 766 -/ (.char, ⟨[], [.pack [.facet (.charset .char) (.charset .char ⟨.sbc 3, true⟩), .facet (.numpunct 10) (.numpunct 10 ⟨Numpunct.ctor2 [3], 304, 729⟩)]], [.alignedJoin ⟨95, .right, 1310720⟩ [.float .double [.punct, .star] 4607182418800017408]], false⟩, [95, 95, 95, 95, 95, 95, 95, 95, 95, 95, 95, 95, 95, 95, 95, 95, 95, 95, 49, 169]),
  /- input_float.cpp 767 -/ (.char, ⟨[], [.pack [.facet (.charset .char) (.charset .char ⟨.sbc 3, true⟩), .facet (.numpunct 10) (.numpunct 10 ⟨Numpunct.ctor2 [3], 304, 729⟩)]], [.alignedJoin ⟨95, .right, 1310720⟩ [.float .double [.fixed, .punct] 4591870180066957722]], false⟩, [95, 95, 95, 95, 95, 95, 95, 95, 95, 95, 95, 95, 95, 95, 95, 95, 95, 48, 169, 49]),
  /- input_float.cpp 768 -/ (.char, ⟨[], [.pack [.facet (.charset .char) (.charset .char ⟨.sbc 3, true⟩), .facet (.numpunct 10) (.numpunct 10 ⟨Numpunct.ctor2 [3], 304, 729⟩)]], [.alignedJoin ⟨95, .right, 1310720⟩ [.float .double [.punct] 4591870180066957722]], false⟩, [95, 95, 95, 95, 95, 95, 95, 95, 95, 95, 95, 95, 95, 95, 95, 95, 95, 48, 169, 49]),
  /- input_float.cpp 773 -/ (.char, ⟨[], [.pack [.facet (.charset .char) (.charset .char ⟨.sbc 3, true⟩), .facet (.numpunct 16) (.numpunct 16 ⟨Numpunct.ctor2 [4], 304, 44⟩)]], [.alignedJoin ⟨95, .right, 1310720⟩ [.float .double [.hex, .punct] 4607502673036443648]], false⟩, [95, 95, 95, 95, 95, 95, 95, 95, 48, 120, 49, 169, 49, 50, 51, 52, 53, 112, 43, 48]),
  /- input_float.cpp 779 -/ (.char, ⟨[], [.facet (.numpunct 10) (.numpunct 10 ⟨Numpunct.ctor2 [3], 15658734, 16777215⟩)], [.alignedJoin ⟨95, .right, 1310720⟩ [.float .double [.punct] 4652011706887700480]], false⟩, [95, 95, 95, 95, 95, 95, 95, 95, 95, 95, 95, 95, 95, 95, 49, 48, 48, 48, 239, 191, 189, 53]),
  /- input_float.cpp 780 -/ (.char, ⟨[], [.facet (.numpunct 10) (.numpunct 10 ⟨Numpunct.ctor2 [3], 15658734, 16777215⟩)], [.alignedJoin ⟨95, .right, 1310720⟩ [.float .double [.punct] 5357498594607601382]], false⟩, [95, 95, 95, 95, 95, 95, 95, 95, 95, 95, 95, 95, 95, 49, 239, 191, 189, 53, 101, 43, 53, 48]),
  /- input_float.cpp 781 -/ (.char, ⟨[], [.facet (.numpunct 10) (.numpunct 10 ⟨Numpunct.ctor2 [3], 15658734, 16777215⟩)], [.alignedJoin ⟨95, .right, 1310720⟩ [.float .double [.fixed, .p 2, .punct] 4652011706887700480]], false⟩, [95, 95, 95, 95, 95, 95, 95, 95, 95, 95, 95, 95, 95, 49, 48, 48, 48, 239, 191, 189, 53, 48]),
  /- input_float.cpp 782 -/ (.char, ⟨[], [.facet (.numpunct 10) (.numpunct 10 ⟨Numpunct.ctor2 [3], 15658734, 16777215⟩)], [.alignedJoin ⟨95, .right, 1310720⟩ [.float .double [.sci, .p 2, .punct] 5357498594607601382]], false⟩, [95, 95, 95, 95, 95, 95, 95, 95, 95, 95, 95, 95, 49, 239, 191, 189, 53, 48, 101, 43, 53, 48]),
  /- input_float.cpp 783 -/ (.char, ⟨[], [.facet (.numpunct 10) (.numpunct 10 ⟨Numpunct.ctor2 [3], 15658734, 16777215⟩)], [.alignedJoin ⟨95, .right, 1310720⟩ [.float .double [.punct, .star] 4607182418800017408]], false⟩, [95, 95, 95, 95, 95, 95, 95, 95, 95, 95, 95, 95, 95, 95, 95, 95, 95, 95, 49, 239, 191, 189]),
  /- input_float.cpp 784 -/ (.char, ⟨[], [.facet (.numpunct 10) (.numpunct 10 ⟨Numpunct.ctor2 [3], 15658734, 16777215⟩)], [.alignedJoin ⟨95, .right, 1310720⟩ [.float .double [.fixed, .punct] 4591870180066957722]], false⟩, [95, 95, 95, 95, 95, 95, 95, 95, 95, 95, 95, 95, 95, 95, 95, 95, 95, 48, 239, 191, 189, 49]),
  /- input_float.cpp 785 -/ (.char, ⟨[], [.facet (.numpunct 10) (.numpunct 10 ⟨Numpunct.ctor2 [3], 15658734, 16777215⟩)], [.alignedJoin ⟨95, .right, 1310720⟩ [.float .double [.punct] 4591870180066957722]], false⟩, [95, 95, 95, 95, 95, 95, 95, 95, 95, 95, 95, 95, 95, 95, 95, 95, 95, 48, 239, 191, 189, 49]),
  /- input_float.cpp 788 -/ (.char, ⟨[], [.facet (.numpunct 16) (.numpunct 16 ⟨Numpunct.ctor2 [3], 15658734, 44⟩)], [.alignedJoin ⟨95, .right, 1310720⟩ [.float .double [.hex, .punct] 4607502673036443648]], false⟩, [95, 95, 95, 95, 95, 95, 95, 95, 48, 120, 49, 239, 191, 189, 49, 50, 51, 52, 53, 112, 43, 48]),
  /- input_float.cpp 796 -/ (.char, ⟨[], [.pack [.facet (.charset .char) (.charset .char ⟨.sbc 3, true⟩), .facet (.numpunct 10) (.numpunct 10 ⟨Numpunct.ctor2 [3], 3822, 4095⟩)]], [.alignedJoin ⟨95, .right, 1310720⟩ [.float .double [.punct] 4652011706887700480]], false⟩, [95, 95, 95, 95, 95, 95, 95, 95, 95, 95, 95, 95, 95, 95, 49, 48, 48, 48, 63, 53]),
  /- input_float.cpp 797 -/ (.char, ⟨[], [.pack [.facet (.charset .char) (.charset .char ⟨.sbc 3, true⟩), .facet (.numpunct 10) (.numpunct 10 ⟨Numpunct.ctor2 [3], 3822, 4095⟩)]], [.alignedJoin ⟨95, .right, 1310720⟩ [.float .double [.punct] 5357498594607601382]], false⟩, [95, 95, 95, 95, 95, 95, 95, 95, 95, 95, 95, 95, 95, 49, 63, 53, 101, 43, 53, 48]),
  /- input_float.cpp 798 -/ (.char, ⟨[], [.pack [.facet (.charset .char) (.charset .char ⟨.sbc 3, true⟩), .facet (.numpunct 10) (.numpunct 10 ⟨Numpunct.ctor2 [3], 3822, 4095⟩)]], [.alignedJoin ⟨95, .right, 1310720⟩ [.float .double [.fixed, .p 2, .punct] 4652011706887700480]], false⟩, [95, 95, 95, 95, 95, 95, 95, 95, 95, 95, 95, 95, 95, 49, 48, 48, 48, 63, 53, 48]),
  /- input_float.cpp 799 -/ (.char, ⟨[], [.pack [.facet (.charset .char) (.charset .char ⟨.sbc 3, true⟩), .facet (.numpunct 10) (.numpunct 10 ⟨Numpunct.ctor2 [3], 3822, 4095⟩)]], [.alignedJoin ⟨95, .right, 1310720⟩ [.float .double [.sci, .p 2, .punct] 5357498594607601382]], false⟩, [95, 95, 95, 95, 95, 95, 95, 95, 95, 95, 95, 95, 49, 63, 53, 48, 101, 43, 53, 48]),
  /- input_float.cpp 800 -/ (.char, ⟨[], [.pack [.facet (.charset .char) (.charset .char ⟨.sbc 3, true⟩), .facet (.numpunct 10) (.numpunct 10 ⟨Numpunct.ctor2 [3], 3822, 4095⟩)]], [.alignedJoin ⟨95, .right, 1310720⟩ [.float .double [.punct, .star] 4607182418800017408]], false⟩, [95, 95, 95, 95, 95, 95, 95, 95, 95, 95, 95, 95, 95, 95, 95, 95, 95, 95, 49, 63]),
  /- input_float.cpp 801 -/ (.char, ⟨[], [.pack [.facet (.charset .char) (.charset .char ⟨.sbc 3, true⟩), .facet (.numpunct 10) (.numpunct 10 ⟨Numpunct.ctor2 [3], 3822, 4095⟩)]], [.alignedJoin ⟨95, .right, 1310720⟩ [.float .double [.fixed, .punct] 4591870180066957722]], false⟩, [95, 95, 95, 95, 95, 95, 95, 95, 95, 95, 95, 95, 95, 95, 95, 95, 95, 48, 63, 49]),
  /- input_float.cpp 802 -/ (.char, ⟨[], [.pack [.facet (.charset .char) (.charset .char ⟨.sbc 3, true⟩), .facet (.numpunct 10) (.numpunct 10 ⟨Numpunct.ctor2 [3], 3822, 4095⟩)]], [.alignedJoin ⟨95, .right, 1310720⟩ [.float .double [.punct] 4591870180066957722]], false⟩, [95, 95, 95, 95, 95, 95, 95, 95, 95, 95, 95, 95, 95, 95, 95, 95, 95, 48, 63, 49])] = true := by decide +kernel

set_option maxRecDepth 100000 in
example : allPrint [
  /- input_float.cpp 807 -/ (.char, ⟨[], [.pack [.facet (.charset .char) (.charset .char ⟨.sbc 3, true⟩), .facet (.numpunct 16) (.numpunct 16 ⟨Numpunct.ctor2 [4], 3822, 44⟩)]], [.alignedJoin ⟨95, .right, 1310720⟩ [.float .double [.hex, .punct] 4607502673036443648]], false⟩, [95, 95, 95, 95, 95, 95, 95, 95, 48, 120, 49, 63, 49, 50, 51, 52, 53, 112, 43, 48]),
  /- input_float.cpp 812 -/ (.char, ⟨[], [.facet (.numpunct 10) (.numpunct 10 ⟨Numpunct.ctor2 [3], 46, 58⟩)], [.float .double [.punct] 4697254411347427328], false⟩, [49, 58, 48, 52, 56, 58, 53, 55, 54]),
  /- input_float.cpp 816 -/ (.char, ⟨[], [.facet (.numpunct 10) (.numpunct 10 ⟨Numpunct.ctor2 [3], 46, 58⟩)], [.float .double [.fixed, .punct] 4697254411347427328], false⟩, [49, 58, 48, 52, 56, 58, 53, 55, 54]),
  /- input_float.cpp 820 -/ (.char, ⟨[], [.facet (.numpunct 10) (.numpunct 10 ⟨Numpunct.ctor2 [3], 46, 2748⟩)], [.float .double [.punct] 4697254411347427328], false⟩, [49, 224, 170, 188, 48, 52, 56, 224, 170, 188, 53, 55, 54]),
  /- input_float.cpp 824 -/ (.char, ⟨[], [.facet (.numpunct 10) (.numpunct 10 ⟨Numpunct.ctor2 [3], 46, 2748⟩)], [.float .double [.fixed, .punct] 4697254411347427328], false⟩, [49, 224, 170, 188, 48, 52, 56, 224, 170, 188, 53, 55, 54]),
  /- input_float.cpp 832 -/ (.char, ⟨[], [.facet (.numpunct 10) (.numpunct 10 ⟨Numpunct.ctor2 [1, 2, 1, 2], 46, 44⟩)], [.float .double [.fixed, .punct] 4726483295884279808], false⟩, [49, 44, 48, 48, 44, 48, 48, 44, 48, 44, 48, 48, 44, 48]),
  /- input_float.cpp 833 -/ (.char, ⟨[], [.facet (.numpunct 10) (.numpunct 10 ⟨Numpunct.ctor2 [1, 2, 1, 2], 46, 44⟩)], [.float .double [.fixed, .punct] 4741671816366391296], false⟩, [49, 48, 44, 48, 48, 44, 48, 48, 44, 48, 44, 48, 48, 44, 48]),
  /- input_float.cpp 835 -/ (.char, ⟨[], [.facet (.numpunct 10) (.numpunct 10 ⟨Numpunct.ctor2 [1, 2, 1, 2], 46, 44⟩)], [.float .double [.fixed, .punct] 4749022265541132288], false⟩, [51, 50, 44, 49, 48, 44, 48, 48, 44, 48, 44, 48, 48, 44, 48]),
  /- input_float.cpp 836 -/ (.char, ⟨[], [.facet (.numpunct 10) (.numpunct 10 ⟨Numpunct.ctor2 [1, 2, 1, 2], 46, 44⟩)], [.float .double [.fixed, .punct] 4751324904144502784], false⟩, [52, 51, 44, 50, 49, 44, 48, 48, 44, 48, 44, 48, 48, 44, 48]),
  /- input_float.cpp 837 -/ (.char, ⟨[], [.facet (.numpunct 10) (.numpunct 10 ⟨Numpunct.ctor2 [1, 2, 1, 2], 46, 44⟩)], [.float .double [.fixed, .punct] 4752489976938102784], false⟩, [53, 52, 44, 51, 50, 44, 49, 48, 44, 48, 44, 48, 48, 44, 48]),
  /- input_float.cpp 838 -/ (.char, ⟨[], [.facet (.numpunct 10) (.numpunct 10 ⟨Numpunct.ctor2 [1, 2, 3, 2], 46, 44⟩)], [.float .double [.fixed, .punct] 4739704118203908096], false⟩, [55, 44, 54, 53, 44, 52, 51, 50, 44, 49, 48, 44, 48]),
  /- input_float.cpp 839 -/ (.char, ⟨[], [.facet (.numpunct 10) (.numpunct 10 ⟨Numpunct.ctor2 [1, 1, 2, 3, 1], 46, 44⟩)], [.float .double [.fixed, .punct] 4739704118203908096], false⟩, [55, 44, 54, 44, 53, 52, 51, 44, 50, 49, 44, 48, 44, 48]),
  /- input_float.cpp 840 -/ (.char, ⟨[], [.facet (.numpunct 10) (.numpunct 10 ⟨Numpunct.ctor2 [1, 2, 3], 46, 44⟩)], [.float .double [.fixed, .punct] 4754820144545398784], false⟩, [55, 44, 54, 53, 52, 44, 51, 50, 49, 44, 48, 48, 44, 48]),
  /- input_float.cpp 842 -/ (.char, ⟨[], [.facet (.numpunct 10) (.numpunct 10 ⟨Numpunct.ctor2 [1, 2, -1], 46, 44⟩)], [.float .double [.fixed, .punct] 4696837146684686336], false⟩, [49, 48, 48, 48, 44, 48, 48, 44, 48]),
  /- input_float.cpp 843 -/ (.char, ⟨[], [.facet (.numpunct 10) (.numpunct 10 ⟨Numpunct.ctor2 [1, 2, -1], 46, 44⟩)], [.float .double [.fixed, .punct] 4698050801363320832], false⟩, [49, 50, 51, 52, 44, 48, 48, 44, 48]),
  /- input_float.cpp 844 -/ (.char, ⟨[], [.facet (.numpunct 10) (.numpunct 10 ⟨Numpunct.ctor2 [1, 2, -1], 46, 44⟩)], [.float .double [.fixed, .punct] 4698052948846968832], false⟩, [49, 50, 51, 52, 44, 53, 48, 44, 48]),
  /- input_float.cpp 849 -/ (.char, ⟨[], [.facet (.numpunct 10) (.numpunct 10 ⟨Numpunct.ctor2 [1, 2, 1, 2], 46, 43981⟩)], [.float .double [.fixed, .punct] 4726483295884279808], false⟩, [49, 234, 175, 141, 48, 48, 234, 175, 141, 48, 48, 234, 175, 141, 48, 234, 175, 141, 48, 48, 234, 175, 141, 48]),
  /- input_float.cpp 851 -/ (.char, ⟨[], [.facet (.numpunct 10) (.numpunct 10 ⟨Numpunct.ctor2 [1, 2, 1, 2], 46, 43981⟩)], [.float .double [.fixed, .punct] 4741671816366391296], false⟩, [49, 48, 234, 175, 141, 48, 48, 234, 175, 141, 48, 48, 234, 175, 141, 48, 234, 175, 141, 48, 48, 234, 175, 141, 48]),
  /- input_float.cpp 854 -/ (.char, ⟨[], [.facet (.numpunct 10) (.numpunct 10 ⟨Numpunct.ctor2 [1, 2, 1, 2], 46, 43981⟩)], [.float .double [.fixed, .punct] 4749022265541132288], false⟩, [51, 50, 234, 175, 141, 49, 48, 234, 175, 141, 48, 48, 234, 175, 141, 48, 234, 175, 141, 48, 48, 234, 175, 141, 48]),
  /- input_float.cpp 856 -/ (.char, ⟨[], [.facet (.numpunct 10) (.numpunct 10 ⟨Numpunct.ctor2 [1, 2, 1, 2], 46, 43981⟩)], [.float .double [.fixed, .punct] 4751324904144502784], false⟩, [52, 51, 234, 175, 141, 50, 49, 234, 175, 141, 48, 48, 234, 175, 141, 48, 234, 175, 141, 48, 48, 234, 175, 141, 48]),
  /- input_float.cpp 858 -/ (.char, ⟨[], [.facet (.numpunct 10) (.numpunct 10 ⟨Numpunct.ctor2 [1, 2, 1, 2], 46, 43981⟩)], [.float .double [.fixed, .punct] 4752489976938102784], false⟩, [53, 52, 234, 175, 141, 51, 50, 234, 175, 141, 49, 48, 234, 175, 141, 48, 234, 175, 141, 48, 48, 234, 175, 141, 48]),
  /- input_float.cpp 860 -/ (.char, ⟨[], [.facet (.numpunct 10) (.numpunct 10 ⟨Numpunct.ctor2 [1, 2, 3, 2], 46, 43981⟩)], [.float .double [.fixed, .punct] 4739704118203908096], false⟩, [55, 234, 175, 141, 54, 53, 234, 175, 141, 52, 51, 50, 234, 175, 141, 49, 48, 234, 175, 141, 48]),
  /- input_float.cpp 862 -/ (.char, ⟨[], [.facet (.numpunct 10) (.numpunct 10 ⟨Numpunct.ctor2 [1, 1, 2, 3, 1], 46, 43981⟩)], [.float .double [.fixed, .punct] 4739704118203908096], false⟩, [55, 234, 175, 141, 54, 234, 175, 141, 53, 52, 51, 234, 175, 141, 50, 49, 234, 175, 141, 48, 234, 175, 141, 48]),
  /- input_float.cpp 864 -/ (.char, ⟨[], [.facet (.numpunct 10) (.numpunct 10 ⟨Numpunct.ctor2 [1, 2, 3], 46, 43981⟩)], [.float .double [.fixed, .punct] 4754820144545398784], false⟩, [55, 234, 175, 141, 54, 53, 52, 234, 175, 141, 51, 50, 49, 234, 175, 141, 48, 48, 234, 175, 141, 48]),
  /- input_float.cpp 867 -/ (.char, ⟨[], [.facet (.numpunct 10) (.numpunct 10 ⟨Numpunct.ctor2 [1, 2, -1], 46, 43981⟩)], [.float .double [.fixed, .punct] 4696837146684686336], false⟩, [49, 48, 48, 48, 234, 175, 141, 48, 48, 234, 175, 141, 48]),
  /- input_float.cpp 869 -/ (.char, ⟨[], [.facet (.numpunct 10) (.numpunct 10 ⟨Numpunct.ctor2 [1, 2, -1], 46, 43981⟩)], [.float .double [.fixed, .punct] 4698050801363320832], false⟩, [49, 50, 51, 52, 234, 175, 141, 48, 48, 234, 175, 141, 48]),
  /- input_float.cpp 871 -/ (.char, ⟨[], [.facet (.numpunct 10) (.numpunct 10 ⟨Numpunct.ctor2 [1, 2, -1], 46, 43981⟩)], [.float .double [.fixed, .punct] 4698052948846968832], false⟩, [49, 50, 51, 52, 234, 175, 141, 53, 48, 234, 175, 141, 48]),
  /- input_float.cpp 878 -/ (.char, ⟨[], [.facet (.numpunct 10) (.numpunct 10 ⟨Numpunct.ctor2 [1], 46, 44⟩)], [.alignedJoin ⟨95, .right, 1310720⟩ [.float .double [.punct] 4636737291354636288]], false⟩, [95, 95, 95, 95, 95, 95, 95, 95, 95, 95, 95, 95, 95, 95, 95, 49, 44, 48, 44, 48]),
  /- input_float.cpp 879 -/ (.char, ⟨[], [.facet (.numpunct 10) (.numpunct 10 ⟨Numpunct.ctor2 [1], 46, 44⟩)], [.alignedJoin ⟨95, .right, 1310720⟩ [.float .double [.punct] 4652007308841189376]], false⟩, [95, 95, 95, 95, 95, 95, 95, 95, 95, 95, 95, 95, 95, 95, 95, 49, 101, 43, 48, 51]),
  /- input_float.cpp 880 -/ (.char, ⟨[], [.facet (.numpunct 10) (.numpunct 10 ⟨Numpunct.ctor2 [1], 46, 44⟩)], [.alignedJoin ⟨95, .right, 1310720⟩ [.float .double [.punct] 4652992471259676672]], false⟩, [95, 95, 95, 95, 95, 95, 95, 95, 95, 95, 95, 95, 95, 49, 44, 50, 44, 48, 44, 48]),
  /- input_float.cpp 881 -/ (.char, ⟨[], [.facet (.numpunct 10) (.numpunct 10 ⟨Numpunct.ctor2 [1], 46, 44⟩)], [.alignedJoin ⟨95, .right, 1310720⟩ [.float .double [.punct] 4667822684095119360]], false⟩, [95, 95, 95, 95, 95, 95, 95, 95, 95, 95, 95, 95, 95, 49, 46, 50, 101, 43, 48, 52]),
  /- input_float.cpp 882 -/ (.char, ⟨[], [.facet (.numpunct 10) (.numpunct 10 ⟨Numpunct.ctor2 [1], 46, 44⟩)], [.alignedJoin ⟨95, .right, 1310720⟩ [.float .double [.punct, .plus] 4636737291354636288]], false⟩, [95, 95, 95, 95, 95, 95, 95, 95, 95, 95, 95, 95, 95, 95, 43, 49, 44, 48, 44, 48]),
  /- input_float.cpp 883 -/ (.char, ⟨[], [.facet (.numpunct 10) (.numpunct 10 ⟨Numpunct.ctor2 [1], 46, 44⟩)], [.alignedJoin ⟨95, .right, 1310720⟩ [.float .double [.punct, .star] 4636737291354636288]], false⟩, [95, 95, 95, 95, 95, 95, 95, 95, 95, 95, 95, 95, 95, 95, 49, 44, 48, 44, 48, 46]),
  /- input_float.cpp 884 -/ (.char, ⟨[], [.facet (.numpunct 10) (.numpunct 10 ⟨Numpunct.ctor2 [1], 46, 44⟩)], [.alignedJoin ⟨95, .right, 1310720⟩ [.float .double [.punct] 4652007308841189376]], false⟩, [95, 95, 95, 95, 95, 95, 95, 95, 95, 95, 95, 95, 95, 95, 95, 49, 101, 43, 48, 51]),
  /- input_float.cpp 885 -/ (.char, ⟨[], [.facet (.numpunct 10) (.numpunct 10 ⟨Numpunct.ctor2 [1], 46, 44⟩)], [.alignedJoin ⟨95, .right, 1310720⟩ [.float .double [.punct, .star] 4652007308841189376]], false⟩, [95, 95, 95, 95, 95, 95, 95, 95, 95, 95, 95, 95, 95, 95, 49, 46, 101, 43, 48, 51]),
  /- input_float.cpp 886 -/ (.char, ⟨[], [.facet (.numpunct 10) (.numpunct 10 ⟨Numpunct.ctor2 [1], 46, 44⟩)], [.alignedJoin ⟨95, .right, 1310720⟩ [.float .double [.punct] 4652992471259676672]], false⟩, [95, 95, 95, 95, 95, 95, 95, 95, 95, 95, 95, 95, 95, 49, 44, 50, 44, 48, 44, 48]),
  /- input_float.cpp 887 -/ (.char, ⟨[], [.facet (.numpunct 10) (.numpunct 10 ⟨Numpunct.ctor2 [1], 46, 44⟩)], [.alignedJoin ⟨95, .right, 1310720⟩ [.float .double [.punct, .star] 4652992471259676672]], false⟩, [95, 95, 95, 95, 95, 95, 95, 95, 95, 95, 95, 95, 95, 49, 46, 50, 101, 43, 48, 51]),
  /- input_float.cpp 888 -/ (.char, ⟨[], [.facet (.numpunct 10) (.numpunct 10 ⟨Numpunct.ctor2 [1], 46, 44⟩)], [.alignedJoin ⟨95, .right, 1310720⟩ [.float .double [.punct] 4547007122018943789]], false⟩, [95, 95, 95, 95, 95, 95, 95, 95, 95, 95, 95, 95, 95, 95, 95, 49, 101, 45, 48, 52]),
  /- input_float.cpp 889 -/ (.char, ⟨[], [.facet (.numpunct 10) (.numpunct 10 ⟨Numpunct.ctor2 [1], 46, 44⟩)], [.alignedJoin ⟨95, .right, 1310720⟩ [.float .double [.punct] 4562254508917369340]], false⟩, [95, 95, 95, 95, 95, 95, 95, 95, 95, 95, 95, 95, 95, 95, 95, 48, 46, 48, 48, 49]),
  /- input_float.cpp 890 -/ (.char, ⟨[], [.facet (.numpunct 10) (.numpunct 10 ⟨Numpunct.ctor2 [1], 46, 44⟩)], [.alignedJoin ⟨95, .right, 1310720⟩ [.float .double [.punct] 4547007122018943789]], false⟩, [95, 95, 95, 95, 95, 95, 95, 95, 95, 95, 95, 95, 95, 95, 95, 49, 101, 45, 48, 52])] = true := by decide +kernel

set_option maxRecDepth 100000 in
example : allPrint [
  /- input_float.cpp 891 -/ (.char, ⟨[], [.facet (.numpunct 10) (.numpunct 10 ⟨Numpunct.ctor2 [1], 46, 44⟩)], [.alignedJoin ⟨95, .right, 1310720⟩ [.float .double [.punct] 4562254508917369340]], false⟩, [95, 95, 95, 95, 95, 95, 95, 95, 95, 95, 95, 95, 95, 95, 95, 48, 46, 48, 48, 49]),
  /- input_float.cpp 892 -/ (.char, ⟨[], [.facet (.numpunct 10) (.numpunct 10 ⟨Numpunct.ctor2 [8], 46, 44⟩)], [.alignedJoin ⟨95, .right, 1310720⟩ [.float .double [.punct] 4681608360884174848]], false⟩, [95, 95, 95, 95, 95, 95, 95, 95, 95, 95, 95, 95, 95, 95, 95, 49, 101, 43, 48, 53]),
  /- input_float.cpp 893 -/ (.char, ⟨[], [.facet (.numpunct 10) (.numpunct 10 ⟨Numpunct.ctor2 [1], 46, 44⟩)], [.alignedJoin ⟨95, .right, 1310720⟩ [.float .double [.punct] 4681608395243913216]], false⟩, [95, 95, 95, 95, 95, 95, 95, 95, 49, 46, 48, 48, 48, 48, 48, 53, 101, 43, 48, 53]),
  /- input_float.cpp 894 -/ (.char, ⟨[], [.facet (.numpunct 10) (.numpunct 10 ⟨Numpunct.ctor2 [1], 46, 44⟩)], [.alignedJoin ⟨95, .right, 1310720⟩ [.float .double [.punct] 4666723447345250304]], false⟩, [95, 95, 95, 95, 95, 95, 95, 95, 95, 49, 44, 48, 44, 48, 44, 48, 44, 48, 46, 53]),
  /- input_float.cpp 903 -/ (.char, ⟨[], [], [.float .double [.sci, .p 0] 4546711974113764436], false⟩, [49, 101, 45, 48, 52]),
  /- input_float.cpp 904 -/ (.char, ⟨[], [], [.float .double [.sci, .p 3] 4547006826871038609], false⟩, [49, 46, 48, 48, 48, 101, 45, 48, 52]),
  /- input_float.cpp 905 -/ (.char, ⟨[], [], [.float .double [.sci, .p 3] 4696836803087302656], false⟩, [49, 46, 48, 48, 48, 101, 43, 48, 54]),
  /- input_float.cpp 906 -/ (.char, ⟨[], [], [.float .double [.sci, .p 3] 6103021247146816034], false⟩, [49, 46, 48, 48, 48, 101, 43, 49, 48, 48]),
  /- input_float.cpp 907 -/ (.char, ⟨[], [], [.float .double [.sci, .p 3] 3125919595532272056], false⟩, [49, 46, 48, 48, 48, 101, 45, 57, 57]),
  /- input_float.cpp 908 -/ (.char, ⟨[], [], [.float .double [.sci, .p 0] 6102764075169646211], false⟩, [49, 101, 43, 49, 48, 48]),
  /- input_float.cpp 909 -/ (.char, ⟨[], [], [.float .double [.sci, .p 0] 3125673530003575572], false⟩, [49, 101, 45, 57, 57]),
  /- input_float.cpp 910 -/ (.char, ⟨[], [], [.float .double [.sci, .p 0, .star, .plus] 6102764075169646211], false⟩, [43, 49, 46, 101, 43, 49, 48, 48]),
  /- input_float.cpp 911 -/ (.char, ⟨[], [], [.float .double [.sci, .p 0, .star, .plus] 3125673530003575572], false⟩, [43, 49, 46, 101, 45, 57, 57]),
  /- input_float.cpp 912 -/ (.char, ⟨[], [], [.float .double [.sci, .p 0, .star] 15326136112024422019], false⟩, [45, 49, 46, 101, 43, 49, 48, 48]),
  /- input_float.cpp 913 -/ (.char, ⟨[], [], [.float .double [.sci, .p 0, .star] 12349045566858351380], false⟩, [45, 49, 46, 101, 45, 57, 57]),
  /- input_float.cpp 916 -/ (.char, ⟨[], [], [.float .double [.fixed, .p 4] 4621818892408990151], false⟩, [57, 46, 57, 57, 57, 54]),
  /- input_float.cpp 917 -/ (.char, ⟨[], [], [.float .double [.fixed, .p 3] 4621818892408990151], false⟩, [49, 48, 46, 48, 48, 48]),
  /- input_float.cpp 918 -/ (.char, ⟨[], [], [.float .double [.fixed, .p 0] 4621818892408990151], false⟩, [49, 48]),
  /- input_float.cpp 919 -/ (.char, ⟨[], [], [.float .double [.fixed, .p 0, .star] 4621818892408990151], false⟩, [49, 48, 46]),
  /- input_float.cpp 921 -/ (.char, ⟨[], [], [.float .double [.fixed, .p 6] 4576915347000326158], false⟩, [48, 46, 48, 48, 57, 57, 57, 53]),
  /- input_float.cpp 922 -/ (.char, ⟨[], [], [.float .double [.fixed, .p 5] 4576915347000326158], false⟩, [48, 46, 48, 49, 48, 48, 48]),
  /- input_float.cpp 924 -/ (.char, ⟨[], [], [.float .double [.fixed, .p 4] 4607177915200390038], false⟩, [48, 46, 57, 57, 57, 53]),
  /- input_float.cpp 925 -/ (.char, ⟨[], [], [.float .double [.fixed, .p 3] 4607177915200390038], false⟩, [49, 46, 48, 48, 48]),
  /- input_float.cpp 928 -/ (.char, ⟨[], [], [.float .double [.gen, .p 2] 4562254324449928603], false⟩, [48, 46, 48, 48, 49]),
  /- input_float.cpp 929 -/ (.char, ⟨[], [], [.float .double [.gen, .p 2, .star] 4562254324449928603], false⟩, [48, 46, 48, 48, 49, 48]),
  /- input_float.cpp 930 -/ (.char, ⟨[], [], [.float .double [.gen, .p 4, .star] 4547006826871038609], false⟩, [48, 46, 48, 48, 48, 49, 48, 48, 48]),
  /- input_float.cpp 932 -/ (.char, ⟨[], [], [.float .double [.gen, .p 0] 4531784465286792054], false⟩, [49, 101, 45, 48, 53]),
  /- input_float.cpp 933 -/ (.char, ⟨[], [], [.float .double [.gen, .p 1] 4546711974113764436], false⟩, [48, 46, 48, 48, 48, 49]),
  /- input_float.cpp 934 -/ (.char, ⟨[], [], [.float .double [.gen, .p 4] 4532020347492611393], false⟩, [49, 101, 45, 48, 53]),
  /- input_float.cpp 935 -/ (.char, ⟨[], [], [.float .double [.gen, .p 4, .star] 4532020347492611393], false⟩, [49, 46, 48, 48, 48, 101, 45, 48, 53]),
  /- input_float.cpp 936 -/ (.char, ⟨[], [], [.float .double [.gen, .p 4, .star] 3125919595532272056], false⟩, [49, 46, 48, 48, 48, 101, 45, 57, 57]),
  /- input_float.cpp 937 -/ (.char, ⟨[], [], [.float .double [.gen, .p 4, .star] 3110860229281501069], false⟩, [49, 46, 48, 48, 48, 101, 45, 49, 48, 48]),
  /- input_float.cpp 938 -/ (.char, ⟨[], [], [.float .double [.gen, .p 4, .star] 6103021247146816034], false⟩, [49, 46, 48, 48, 48, 101, 43, 49, 48, 48]),
  /- input_float.cpp 939 -/ (.char, ⟨[], [], [.float .double [.gen, .p 4, .star] 6117818883950718635], false⟩, [49, 46, 48, 48, 48, 101, 43, 49, 48, 49]),
  /- input_float.cpp 941 -/ (.char, ⟨[], [], [.float .double [.gen, .p 4, .star] 4681608086006267904], false⟩, [49, 46, 48, 48, 48, 101, 43, 48, 53]),
  /- input_float.cpp 942 -/ (.char, ⟨[], [], [.float .double [.gen, .p 4, .star] 4666722952565017805], false⟩, [49, 46, 48, 48, 48, 101, 43, 48, 52]),
  /- input_float.cpp 943 -/ (.char, ⟨[], [], [.float .double [.gen, .p 4, .star] 4652006956997468488], false⟩, [49, 48, 48, 48, 46]),
  /- input_float.cpp 945 -/ (.char, ⟨[], [], [.float .double [.gen, .p 5] 4696836803087302656], false⟩, [57, 46, 57, 57, 57, 54, 101, 43, 48, 53]),
  /- input_float.cpp 946 -/ (.char, ⟨[], [], [.float .double [.gen, .p 4] 4681608086006267904], false⟩, [49, 101, 43, 48, 53]),
  /- input_float.cpp 947 -/ (.char, ⟨[], [], [.float .double [.gen, .p 4] 4666722952565017805], false⟩, [49, 101, 43, 48, 52])] = true := by decide +kernel

set_option maxRecDepth 100000 in
example : allPrint [
  /- input_float.cpp 948 -/ (.char, ⟨[], [], [.float .double [.gen, .p 4] 4652006956997468488], false⟩, [49, 48, 48, 48]),
  /- input_float.cpp 949 -/ (.char, ⟨[], [], [.float .double [.gen, .p 5, .star] 4696836803087302656], false⟩, [57, 46, 57, 57, 57, 54, 101, 43, 48, 53]),
  /- input_float.cpp 950 -/ (.char, ⟨[], [], [.float .double [.gen, .p 4, .star] 4681608086006267904], false⟩, [49, 46, 48, 48, 48, 101, 43, 48, 53]),
  /- input_float.cpp 951 -/ (.char, ⟨[], [], [.float .double [.gen, .p 4, .star] 4666722952565017805], false⟩, [49, 46, 48, 48, 48, 101, 43, 48, 52]),
  /- input_float.cpp 952 -/ (.char, ⟨[], [], [.float .double [.gen, .p 4, .star] 4652006956997468488], false⟩, [49, 48, 48, 48, 46]),
  /- input_float.cpp 954 -/ (.char, ⟨[], [], [.float .double [.gen, .p 5] 4681608086006267904], false⟩, [57, 57, 57, 57, 54]),
  /- input_float.cpp 955 -/ (.char, ⟨[], [], [.float .double [.gen, .p 4] 4681608086006267904], false⟩, [49, 101, 43, 48, 53]),
  /- input_float.cpp 957 -/ (.char, ⟨[], [], [.float .double [.gen, .p 3] 4621816865789157835], false⟩, [49, 48]),
  /- input_float.cpp 958 -/ (.char, ⟨[], [], [.float .double [.gen, .p 2, .star] 4621818892408990151], false⟩, [49, 48, 46]),
  /- input_float.cpp 959 -/ (.char, ⟨[], [], [.float .double [.gen, .p 3, .star] 4621816865789157835], false⟩, [49, 48, 46, 48]),
  /- input_float.cpp 960 -/ (.char, ⟨[], [], [.float .double [.gen, .p 2] 4621818892408990151], false⟩, [49, 48]),
  /- input_float.cpp 961 -/ (.char, ⟨[], [], [.float .double [.gen, .p 1] 4621593937607602995], false⟩, [49, 101, 43, 48, 49]),
  /- input_float.cpp 962 -/ (.char, ⟨[], [], [.float .double [.gen, .p 1, .star] 4621593937607602995], false⟩, [49, 46, 101, 43, 48, 49]),
  /- input_string.cpp 20 -/ (.char, ⟨[], [], [.str .char [] [97, 98, 99]], false⟩, [97, 98, 99]),
  /- input_string.cpp 21 -/ (.char, ⟨[], [], [.str .char [.align (.right 393216)] [97, 98, 99]], false⟩, [32, 32, 32, 97, 98, 99]),
  /- input_string.cpp 22 -/ (.char, ⟨[], [], [.str .char [.align (.set 46 393216 .left)] [97, 98, 99]], false⟩, [97, 98, 99, 46, 46, 46]),
  /- input_string.cpp 23 -/ (.char, ⟨[], [], [.str .char [.align (.set 46 393216 .right)] [97, 98, 99]], false⟩, [46, 46, 46, 97, 98, 99]),
  /- input_string.cpp 24 -/ (.char, ⟨[], [], [.str .char [.align (.set 46 393216 .center)] [97, 98, 99]], false⟩, [46, 97, 98, 99, 46, 46]),
  /- input_string.cpp 25 -/ (.char, ⟨[], [], [.alignedJoin ⟨32, .right, 524288⟩ [.str .char [] [97, 98, 99]]], false⟩, [32, 32, 32, 32, 32, 97, 98, 99]),
  /- input_string.cpp 26 -/ (.char, ⟨[], [], [.alignedJoin ⟨46, .right, 524288⟩ [.str .char [.align (.set 126 327680 .left)] [97, 98, 99]]], false⟩, [46, 46, 46, 97, 98, 99, 126, 126]),
  /- input_string.cpp 27 -/ (.char, ⟨[], [], [.alignedJoin ⟨46, .right, 524288⟩ [.str .char [.align (.set 126 196608 .left)] [97, 98, 99]]], false⟩, [46, 46, 46, 46, 46, 97, 98, 99]),
  /- input_string.cpp 28 -/ (.char, ⟨[], [], [.alignedJoin ⟨46, .right, 524288⟩ [.str .char [.align (.set 126 131072 .left)] [97, 98, 99]]], false⟩, [46, 46, 46, 46, 46, 97, 98, 99]),
  /- input_string.cpp 30 -/ (.char, ⟨[], [], [.str .char [.align (.right 196608)] [], .str .char [.align (.right 196608)] [97, 98, 99], .str .char [.align (.left 196608)] [100, 101, 102], .str .char [.align (.center 196608)] [103, 104, 105]], false⟩, [32, 32, 32, 97, 98, 99, 100, 101, 102, 103, 104, 105]),
  /- input_string.cpp 31 -/ (.char, ⟨[], [], [.str .char [.align (.right 131072)] [], .str .char [.align (.right 131072)] [97, 98, 99], .str .char [.align (.left 131072)] [100, 101, 102], .str .char [.align (.center 131072)] [103, 104, 105]], false⟩, [32, 32, 97, 98, 99, 100, 101, 102, 103, 104, 105]),
  /- input_string.cpp 32 -/ (.char, ⟨[], [], [.str .char [.align (.right 0)] [], .str .char [.align (.right 0)] [97, 98, 99], .str .char [.align (.left 0)] [100, 101, 102], .str .char [.align (.center 0)] [103, 104, 105]], false⟩, [97, 98, 99, 100, 101, 102, 103, 104, 105]),
  /- input_string.cpp 35 -/ (.char, ⟨[], [], [.str .char [.p 196608] [97, 98, 99, 100]], false⟩, [97, 98, 99]),
  /- input_string.cpp 36 -/ (.char, ⟨[], [], [.str .char [.align (.right 393216), .p 196608] [97, 98, 99, 100]], false⟩, [32, 32, 32, 97, 98, 99]),
  /- input_string.cpp 37 -/ (.char, ⟨[], [], [.str .char [.align (.set 46 393216 .left), .p 196608] [97, 98, 99, 100]], false⟩, [97, 98, 99, 46, 46, 46]),
  /- input_string.cpp 38 -/ (.char, ⟨[], [], [.str .char [.align (.set 46 393216 .right), .p 196608] [97, 98, 99, 100]], false⟩, [46, 46, 46, 97, 98, 99]),
  /- input_string.cpp 39 -/ (.char, ⟨[], [], [.str .char [.align (.set 46 393216 .center), .p 196608] [97, 98, 99, 100]], false⟩, [46, 97, 98, 99, 46, 46]),
  /- input_string.cpp 40 -/ (.char, ⟨[], [], [.alignedJoin ⟨32, .right, 524288⟩ [.str .char [.p 196608] [97, 98, 99, 100]]], false⟩, [32, 32, 32, 32, 32, 97, 98, 99]),
  /- input_string.cpp 41 -/ (.char, ⟨[], [], [.alignedJoin ⟨46, .right, 524288⟩ [.str .char [.align (.set 126 327680 .left), .p 196608] [97, 98, 99, 100]]], false⟩, [46, 46, 46, 97, 98, 99, 126, 126]),
  /- input_string.cpp 42 -/ (.char, ⟨[], [], [.alignedJoin ⟨46, .right, 524288⟩ [.str .char [.align (.set 126 196608 .left), .p 196608] [97, 98, 99, 100]]], false⟩, [46, 46, 46, 46, 46, 97, 98, 99]),
  /- input_string.cpp 43 -/ (.char, ⟨[], [], [.alignedJoin ⟨46, .right, 524288⟩ [.str .char [.align (.set 126 131072 .left), .p 196608] [97, 98, 99, 100]]], false⟩, [46, 46, 46, 46, 46, 97, 98, 99]),
  /- input_string.cpp 49 -/ ((.wchar true), ⟨[], [], [.str (.wchar true) [] [97, 98, 99]], false⟩, [97, 98, 99]),
  /- input_string.cpp 50 -/ ((.wchar true), ⟨[], [], [.str (.wchar true) [.align (.right 393216)] [97, 98, 99]], false⟩, [32, 32, 32, 97, 98, 99]),
  /- input_string.cpp 51 -/ ((.wchar true), ⟨[], [], [.str (.wchar true) [.align (.set 46 393216 .left)] [97, 98, 99]], false⟩, [97, 98, 99, 46, 46, 46]),
  /- input_string.cpp 52 -/ ((.wchar true), ⟨[], [], [.str (.wchar true) [.align (.set 46 393216 .right)] [97, 98, 99]], false⟩, [46, 46, 46, 97, 98, 99]),
  /- input_string.cpp 53 -/ ((.wchar true), ⟨[], [], [.str (.wchar true) [.align (.set 46 393216 .center)] [97, 98, 99]], false⟩, [46, 97, 98, 99, 46, 46]),
  /- input_string.cpp 54 -/ ((.wchar true), ⟨[], [], [.alignedJoin ⟨32, .right, 524288⟩ [.str (.wchar true) [] [97, 98, 99]]], false⟩, [32, 32, 32, 32, 32, 97, 98, 99])] = true := by decide +kernel

set_option maxRecDepth 100000 in
example : allPrint [
  /- input_string.cpp 55 -/ ((.wchar true), ⟨[], [], [.alignedJoin ⟨46, .right, 524288⟩ [.str (.wchar true) [.align (.set 126 327680 .left)] [97, 98, 99]]], false⟩, [46, 46, 46, 97, 98, 99, 126, 126]),
  /- input_string.cpp 56 -/ ((.wchar true), ⟨[], [], [.alignedJoin ⟨46, .right, 524288⟩ [.str (.wchar true) [.align (.set 126 196608 .left)] [97, 98, 99]]], false⟩, [46, 46, 46, 46, 46, 97, 98, 99]),
  /- input_string.cpp 57 -/ ((.wchar true), ⟨[], [], [.alignedJoin ⟨46, .right, 524288⟩ [.str (.wchar true) [.align (.set 126 131072 .left)] [97, 98, 99]]], false⟩, [46, 46, 46, 46, 46, 97, 98, 99]),
  /- input_string.cpp 59 -/ ((.wchar true), ⟨[], [], [.str (.wchar true) [.align (.right 196608)] [], .str (.wchar true) [.align (.right 196608)] [97, 98, 99], .str (.wchar true) [.align (.left 196608)] [100, 101, 102], .str (.wchar true) [.align (.center 196608)] [103, 104, 105]], false⟩, [32, 32, 32, 97, 98, 99, 100, 101, 102, 103, 104, 105]),
  /- input_string.cpp 60 -/ ((.wchar true), ⟨[], [], [.str (.wchar true) [.align (.right 131072)] [], .str (.wchar true) [.align (.right 131072)] [97, 98, 99], .str (.wchar true) [.align (.left 131072)] [100, 101, 102], .str (.wchar true) [.align (.center 131072)] [103, 104, 105]], false⟩, [32, 32, 97, 98, 99, 100, 101, 102, 103, 104, 105]),
  /- input_string.cpp 61 -/ ((.wchar true), ⟨[], [], [.str (.wchar true) [.align (.right 0)] [], .str (.wchar true) [.align (.right 0)] [97, 98, 99], .str (.wchar true) [.align (.left 0)] [100, 101, 102], .str (.wchar true) [.align (.center 0)] [103, 104, 105]], false⟩, [97, 98, 99, 100, 101, 102, 103, 104, 105]),
  /- input_string.cpp 69 -/ (.char, ⟨[], [], [.str .char [] [97, 98, 99]], false⟩, [97, 98, 99]),
  /- input_string.cpp 70 -/ (.char, ⟨[], [], [.str .char [.align (.right 393216)] [97, 98, 99]], false⟩, [32, 32, 32, 97, 98, 99]),
  /- input_string.cpp 76 -/ ((.wchar true), ⟨[], [], [.str (.wchar true) [] [97, 98, 99]], false⟩, [97, 98, 99]),
  /- input_string.cpp 77 -/ ((.wchar true), ⟨[], [], [.str (.wchar true) [.align (.right 393216)] [97, 98, 99]], false⟩, [32, 32, 32, 97, 98, 99]),
  /- input_string.cpp 87 -/ (.char, ⟨[], [], [.str .char [] [97, 98, 99]], false⟩, [97, 98, 99]),
  /- input_string.cpp 88 -/ (.char, ⟨[], [], [.str .char [.align (.right 393216)] [97, 98, 99]], false⟩, [32, 32, 32, 97, 98, 99]),
  /- input_string.cpp 108 -/ (.char, ⟨[], [], [.str .char [.sani none] [45, 45, 45, 255, 45, 45, 45]], false⟩, [45, 45, 45, 239, 191, 189, 45, 45, 45]),
  /- input_string.cpp 109 -/ (.char, ⟨[], [], [.str .char [.sani none, .align (.right 655360)] [45, 45, 45, 255, 45, 45, 45]], false⟩, [32, 32, 32, 45, 45, 45, 239, 191, 189, 45, 45, 45]),
  /- input_string.cpp 110 -/ (.char, ⟨[], [], [.str .char [.sani (some ⟨.utf .utf8, true⟩)] [45, 45, 45, 255, 45, 45, 45]], false⟩, [45, 45, 45, 239, 191, 189, 45, 45, 45]),
  /- input_string.cpp 111 -/ (.char, ⟨[], [], [.str .char [.sani (some ⟨.utf .utf8, true⟩), .align (.right 655360)] [45, 45, 45, 255, 45, 45, 45]], false⟩, [32, 32, 32, 45, 45, 45, 239, 191, 189, 45, 45, 45]),
  /- input_string.cpp 113 -/ (.char, ⟨[], [], [.str .char [.sani none, .p 327680] [45, 45, 45, 255, 45, 45, 45]], false⟩, [45, 45, 45, 239, 191, 189, 45]),
  /- input_string.cpp 114 -/ (.char, ⟨[], [], [.str .char [.sani none, .p 327680, .align (.right 655360)] [45, 45, 45, 255, 45, 45, 45]], false⟩, [32, 32, 32, 32, 32, 45, 45, 45, 239, 191, 189, 45]),
  /- input_string.cpp 115 -/ (.char, ⟨[], [], [.str .char [.sani (some ⟨.utf .utf8, true⟩), .p 327680] [45, 45, 45, 255, 45, 45, 45]], false⟩, [45, 45, 45, 239, 191, 189, 45]),
  /- input_string.cpp 116 -/ (.char, ⟨[], [], [.str .char [.sani (some ⟨.utf .utf8, true⟩), .p 327680, .align (.right 655360)] [45, 45, 45, 255, 45, 45, 45]], false⟩, [32, 32, 32, 32, 32, 45, 45, 45, 239, 191, 189, 45]),
  /- input_string.cpp 119 -/ (.char, ⟨[], [.facet (.charset .char) (.charset .char ⟨.sbc 3, true⟩)], [.str .char [.sani (some ⟨.sbc 3, true⟩)] [45, 45, 45, 165, 45, 45, 45]], false⟩, [45, 45, 45, 63, 45, 45, 45]),
  /- input_string.cpp 122 -/ (.char, ⟨[], [.facet (.charset .char) (.charset .char ⟨.sbc 3, true⟩)], [.str .char [.sani (some ⟨.sbc 3, true⟩), .align (.right 589824)] [45, 45, 45, 165, 45, 45, 45]], false⟩, [32, 32, 45, 45, 45, 63, 45, 45, 45]),
  /- input_string.cpp 142 -/ (.char16, ⟨[], [], [.str .char [.transcode none] [191, 95, 240, 159, 145, 136]], false⟩, [65533, 95, 55357, 56392]),
  /- input_string.cpp 143 -/ (.char16, ⟨[], [], [.str .char [.transcode none, .align (.right 458752)] [191, 95, 240, 159, 145, 136]], false⟩, [32, 32, 32, 65533, 95, 55357, 56392]),
  /- input_string.cpp 144 -/ (.char16, ⟨[], [], [.str .char [.transcode none, .align (.fill 46), .align (.left 458752)] [191, 95, 240, 159, 145, 136]], false⟩, [65533, 95, 55357, 56392, 46, 46, 46]),
  /- input_string.cpp 145 -/ (.char16, ⟨[], [], [.str .char [.transcode none, .align (.fill 46), .align (.right 458752)] [191, 95, 240, 159, 145, 136]], false⟩, [46, 46, 46, 65533, 95, 55357, 56392]),
  /- input_string.cpp 146 -/ (.char16, ⟨[], [], [.str .char [.transcode none, .align (.fill 46), .align (.center 458752)] [191, 95, 240, 159, 145, 136]], false⟩, [46, 65533, 95, 55357, 56392, 46, 46]),
  /- input_string.cpp 148 -/ (.char16, ⟨[], [], [.alignedJoin ⟨32, .right, 458752⟩ [.str .char [.transcode none] [191, 95, 240, 159, 145, 136]]], false⟩, [32, 32, 32, 65533, 95, 55357, 56392]),
  /- input_string.cpp 149 -/ (.char16, ⟨[], [], [.alignedJoin ⟨46, .right, 655360⟩ [.str .char [.transcode none, .align (.fill 126), .align (.left 458752)] [191, 95, 240, 159, 145, 136]]], false⟩, [46, 46, 46, 65533, 95, 55357, 56392, 126, 126, 126]),
  /- input_string.cpp 150 -/ (.char16, ⟨[], [], [.alignedJoin ⟨46, .right, 655360⟩ [.str .char [.transcode none, .align (.fill 126), .align (.left 262144)] [191, 95, 240, 159, 145, 136]]], false⟩, [46, 46, 46, 46, 46, 46, 65533, 95, 55357, 56392]),
  /- input_string.cpp 151 -/ (.char16, ⟨[], [], [.alignedJoin ⟨46, .right, 655360⟩ [.str .char [.transcode none, .align (.fill 126), .align (.left 196608)] [191, 95, 240, 159, 145, 136]]], false⟩, [46, 46, 46, 46, 46, 46, 65533, 95, 55357, 56392]),
  /- input_string.cpp 163 -/ (.char16, ⟨[], [], [.str .char [.transcode none, .p 262144] [191, 95, 240, 159, 145, 136, 95, 95, 95]], false⟩, [65533, 95, 55357, 56392]),
  /- input_string.cpp 164 -/ (.char16, ⟨[], [], [.str .char [.transcode none, .p 262144, .align (.right 458752)] [191, 95, 240, 159, 145, 136, 95, 95, 95]], false⟩, [32, 32, 32, 65533, 95, 55357, 56392]),
  /- input_string.cpp 165 -/ (.char16, ⟨[], [], [.str .char [.transcode none, .p 262144, .align (.fill 46), .align (.left 458752)] [191, 95, 240, 159, 145, 136, 95, 95, 95]], false⟩, [65533, 95, 55357, 56392, 46, 46, 46]),
  /- input_string.cpp 166 -/ (.char16, ⟨[], [], [.str .char [.transcode none, .p 262144, .align (.fill 46), .align (.right 458752)] [191, 95, 240, 159, 145, 136, 95, 95, 95]], false⟩, [46, 46, 46, 65533, 95, 55357, 56392])] = true := by decide +kernel

end Strf.Program
