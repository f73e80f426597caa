import Verif.Conformance.WidthBase
/-! Generated by tools/conformance.py from /repo/tests/std_width_calculator.cpp: see Verif/Conformance/WidthBase.lean. Tests of the
model, not proofs. -/
namespace Strf.WidthCalc

set_option maxRecDepth 100000 in
example : List.all [
  (2, [1, 1], [32, 32]),
  (2, [2, 1], [32, 879, 32]),
  (2, [1, 1], [32, 13]),
  (2, [2, 1], [32, 879, 13]),
  (2, [1, 1], [32, 10]),
  (2, [2, 1], [32, 879, 10]),
  (2, [1, 1], [32, 1]),
  (2, [2, 1], [32, 879, 1]),
  (1, [2], [32, 879]),
  (1, [3], [32, 879, 879]),
  (2, [1, 1], [32, 127462]),
  (2, [2, 1], [32, 879, 127462]),
  (2, [1, 1], [32, 1541]),
  (2, [2, 1], [32, 879, 1541]),
  (1, [2], [32, 2307]),
  (1, [3], [32, 879, 2307]),
  (2, [1, 1], [32, 43388]),
  (2, [2, 1], [32, 879, 43388]),
  (2, [1, 1], [32, 4519]),
  (2, [2, 1], [32, 879, 4519]),
  (2, [1, 1], [32, 4607]),
  (2, [2, 1], [32, 879, 4607]),
  (3, [1, 1], [32, 44032]),
  (3, [2, 1], [32, 879, 44032]),
  (3, [1, 1], [32, 55177]),
  (3, [2, 1], [32, 879, 44033]),
  (2, [1, 1], [32, 169]),
  (2, [2, 1], [32, 879, 169]),
  (1, [2], [32, 879]),
  (1, [3], [32, 879, 879]),
  (1, [2], [32, 8205]),
  (1, [3], [32, 879, 8205]),
  (2, [1, 1], [32, 32]),
  (2, [2, 1], [32, 879, 32]),
  (2, [1, 1], [13, 32]),
  (3, [1, 1, 1], [13, 879, 32]),
  (2, [1, 1], [13, 13]),
  (3, [1, 1, 1], [13, 879, 13]),
  (1, [2], [13, 10]),
  (3, [1, 1, 1], [13, 879, 10]),
  (2, [1, 1], [13, 1]),
  (3, [1, 1, 1], [13, 879, 1]),
  (2, [1, 1], [13, 879]),
  (2, [1, 2], [13, 879, 879]),
  (2, [1, 1], [13, 127462]),
  (3, [1, 1, 1], [13, 879, 127462]),
  (2, [1, 1], [13, 1541]),
  (3, [1, 1, 1], [13, 879, 1541]),
  (2, [1, 1], [13, 2307]),
  (2, [1, 2], [13, 879, 2307]),
  (2, [1, 1], [13, 43388]),
  (3, [1, 1, 1], [13, 879, 43388]),
  (2, [1, 1], [13, 4519]),
  (3, [1, 1, 1], [13, 879, 4519]),
  (2, [1, 1], [13, 4607]),
  (3, [1, 1, 1], [13, 879, 4607]),
  (3, [1, 1], [13, 44032]),
  (4, [1, 1, 1], [13, 879, 44032]),
  (3, [1, 1], [13, 44040]),
  (4, [1, 1, 1], [13, 879, 55177]),
  (2, [1, 1], [13, 169]),
  (3, [1, 1, 1], [13, 879, 169]),
  (2, [1, 1], [13, 879]),
  (2, [1, 2], [13, 879, 879]),
  (2, [1, 1], [13, 8205]),
  (2, [1, 2], [13, 879, 8205]),
  (2, [1, 1], [13, 32]),
  (3, [1, 1, 1], [13, 879, 32]),
  (2, [1, 1], [10, 32]),
  (3, [1, 1, 1], [10, 879, 32]),
  (2, [1, 1], [10, 13]),
  (3, [1, 1, 1], [10, 879, 13]),
  (2, [1, 1], [10, 10]),
  (3, [1, 1, 1], [10, 879, 10]),
  (2, [1, 1], [10, 1]),
  (3, [1, 1, 1], [10, 879, 1]),
  (2, [1, 1], [10, 879]),
  (2, [1, 2], [10, 879, 879]),
  (2, [1, 1], [10, 127462]),
  (3, [1, 1, 1], [10, 879, 127462]),
  (2, [1, 1], [10, 1541]),
  (3, [1, 1, 1], [10, 879, 1541]),
  (2, [1, 1], [10, 2307]),
  (2, [1, 2], [10, 879, 2307]),
  (2, [1, 1], [10, 43388]),
  (3, [1, 1, 1], [10, 879, 43388]),
  (2, [1, 1], [10, 4519]),
  (3, [1, 1, 1], [10, 879, 4519]),
  (2, [1, 1], [10, 4607]),
  (3, [1, 1, 1], [10, 879, 4607]),
  (3, [1, 1], [10, 44032]),
  (4, [1, 1, 1], [10, 879, 44032]),
  (3, [1, 1], [10, 55177]),
  (4, [1, 1, 1], [10, 879, 55177]),
  (2, [1, 1], [10, 169]),
  (3, [1, 1, 1], [10, 879, 169]),
  (2, [1, 1], [10, 879]),
  (2, [1, 2], [10, 879, 879]),
  (2, [1, 1], [10, 8205]),
  (2, [1, 2], [10, 879, 8205])] widthTest = true := by decide +kernel

set_option maxRecDepth 100000 in
example : List.all [
  (2, [1, 1], [10, 32]),
  (3, [1, 1, 1], [10, 879, 32]),
  (2, [1, 1], [1, 32]),
  (3, [1, 1, 1], [1, 879, 32]),
  (2, [1, 1], [1, 13]),
  (3, [1, 1, 1], [1, 879, 13]),
  (2, [1, 1], [1, 10]),
  (3, [1, 1, 1], [1, 879, 10]),
  (2, [1, 1], [1, 1]),
  (3, [1, 1, 1], [1, 879, 1]),
  (2, [1, 1], [1, 879]),
  (2, [1, 2], [1, 879, 879]),
  (2, [1, 1], [1, 127462]),
  (3, [1, 1, 1], [1, 879, 127462]),
  (2, [1, 1], [1, 1541]),
  (3, [1, 1, 1], [1, 879, 1541]),
  (2, [1, 1], [1, 2307]),
  (2, [1, 2], [1, 879, 2307]),
  (2, [1, 1], [1, 43388]),
  (3, [1, 1, 1], [1, 879, 43388]),
  (2, [1, 1], [1, 4519]),
  (3, [1, 1, 1], [1, 879, 4519]),
  (2, [1, 1], [1, 4607]),
  (3, [1, 1, 1], [1, 879, 4607]),
  (3, [1, 1], [1, 44032]),
  (4, [1, 1, 1], [1, 879, 44032]),
  (3, [1, 1], [1, 55177]),
  (4, [1, 1, 1], [1, 879, 55177]),
  (2, [1, 1], [1, 169]),
  (3, [1, 1, 1], [1, 879, 169]),
  (2, [1, 1], [1, 879]),
  (2, [1, 2], [1, 879, 879]),
  (2, [1, 1], [1, 8205]),
  (2, [1, 2], [1, 879, 8205]),
  (2, [1, 1], [1, 32]),
  (3, [1, 1, 1], [1, 879, 32]),
  (2, [1, 1], [879, 32]),
  (2, [2, 1], [879, 879, 32]),
  (2, [1, 1], [879, 13]),
  (2, [2, 1], [879, 879, 13]),
  (2, [1, 1], [879, 10]),
  (2, [2, 1], [879, 879, 10]),
  (2, [1, 1], [879, 1]),
  (2, [2, 1], [879, 879, 1]),
  (1, [2], [879, 879]),
  (1, [3], [879, 879, 879]),
  (2, [1, 1], [879, 127462]),
  (2, [2, 1], [879, 879, 127462]),
  (2, [1, 1], [879, 1541]),
  (2, [2, 1], [879, 879, 1541]),
  (1, [2], [879, 2307]),
  (1, [3], [879, 879, 2307]),
  (2, [1, 1], [879, 43388]),
  (2, [2, 1], [879, 879, 43388]),
  (2, [1, 1], [879, 4519]),
  (2, [2, 1], [879, 879, 4519]),
  (2, [1, 1], [879, 4607]),
  (2, [2, 1], [879, 879, 4607]),
  (3, [1, 1], [879, 44032]),
  (3, [2, 1], [879, 879, 44032]),
  (3, [1, 1], [879, 55177]),
  (3, [2, 1], [879, 879, 55177]),
  (2, [1, 1], [879, 169]),
  (2, [2, 1], [879, 879, 169]),
  (1, [2], [879, 879]),
  (1, [3], [879, 879, 879]),
  (1, [2], [879, 8205]),
  (1, [3], [879, 879, 8205]),
  (2, [1, 1], [879, 32]),
  (2, [2, 1], [879, 879, 32]),
  (2, [1, 1], [127462, 32]),
  (2, [2, 1], [127462, 879, 32]),
  (2, [1, 1], [127462, 13]),
  (2, [2, 1], [127462, 879, 13]),
  (2, [1, 1], [127462, 10]),
  (2, [2, 1], [127462, 879, 10]),
  (2, [1, 1], [127462, 1]),
  (2, [2, 1], [127462, 879, 1]),
  (1, [2], [127462, 879]),
  (1, [3], [127462, 879, 879]),
  (1, [2], [127462, 127462]),
  (2, [2, 1], [127462, 879, 127462]),
  (2, [1, 1], [127462, 1541]),
  (2, [2, 1], [127462, 879, 1541]),
  (1, [2], [127462, 2307]),
  (1, [3], [127462, 879, 2307]),
  (2, [1, 1], [127462, 43388]),
  (2, [2, 1], [127462, 879, 43388]),
  (2, [1, 1], [127462, 4519]),
  (2, [2, 1], [127462, 879, 4519]),
  (2, [1, 1], [127462, 4607]),
  (2, [2, 1], [127462, 879, 4607]),
  (3, [1, 1], [127462, 44032]),
  (3, [2, 1], [127462, 879, 44032]),
  (3, [1, 1], [127462, 55177]),
  (3, [2, 1], [127462, 879, 55177]),
  (2, [1, 1], [127462, 169]),
  (2, [2, 1], [127462, 879, 169]),
  (1, [2], [127462, 879]),
  (1, [3], [127462, 879, 879])] widthTest = true := by decide +kernel

set_option maxRecDepth 100000 in
example : List.all [
  (1, [2], [127462, 8205]),
  (1, [3], [127462, 879, 8205]),
  (2, [1, 1], [127462, 32]),
  (2, [2, 1], [127462, 879, 32]),
  (1, [2], [1541, 32]),
  (2, [2, 1], [1541, 879, 32]),
  (2, [1, 1], [1541, 13]),
  (2, [2, 1], [1541, 879, 13]),
  (2, [1, 1], [1541, 10]),
  (2, [2, 1], [1541, 879, 10]),
  (2, [1, 1], [1541, 1]),
  (2, [2, 1], [1541, 879, 1]),
  (1, [2], [1541, 879]),
  (1, [3], [1541, 879, 879]),
  (1, [2], [1541, 127462]),
  (2, [2, 1], [1541, 879, 127462]),
  (1, [2], [1541, 1541]),
  (2, [2, 1], [1541, 879, 1541]),
  (1, [2], [1541, 2307]),
  (1, [3], [1541, 879, 2307]),
  (1, [2], [1541, 43388]),
  (2, [2, 1], [1541, 879, 43388]),
  (1, [2], [1541, 4519]),
  (2, [2, 1], [1541, 879, 4519]),
  (1, [2], [1541, 4607]),
  (2, [2, 1], [1541, 879, 4607]),
  (1, [2], [1541, 44032]),
  (3, [2, 1], [1541, 879, 44032]),
  (1, [2], [1541, 55177]),
  (3, [2, 1], [1541, 879, 55177]),
  (1, [2], [1541, 169]),
  (2, [2, 1], [1541, 879, 169]),
  (1, [2], [1541, 879]),
  (1, [3], [1541, 879, 879]),
  (1, [2], [1541, 8205]),
  (1, [3], [1541, 879, 8205]),
  (1, [2], [1541, 32]),
  (2, [2, 1], [1541, 879, 32]),
  (2, [1, 1], [2307, 32]),
  (2, [2, 1], [2307, 879, 32]),
  (2, [1, 1], [2307, 13]),
  (2, [2, 1], [2307, 879, 13]),
  (2, [1, 1], [2307, 10]),
  (2, [2, 1], [2307, 879, 10]),
  (2, [1, 1], [2307, 1]),
  (2, [2, 1], [2307, 879, 1]),
  (1, [2], [2307, 879]),
  (1, [3], [2307, 879, 879]),
  (2, [1, 1], [2307, 127462]),
  (2, [2, 1], [2307, 879, 127462]),
  (2, [1, 1], [2307, 1541]),
  (2, [2, 1], [2307, 879, 1541]),
  (1, [2], [2307, 2307]),
  (1, [3], [2307, 879, 2307]),
  (2, [1, 1], [2307, 43388]),
  (2, [2, 1], [2307, 879, 43388]),
  (2, [1, 1], [2307, 4519]),
  (2, [2, 1], [2307, 879, 4519]),
  (2, [1, 1], [2307, 4607]),
  (2, [2, 1], [2307, 879, 4607]),
  (3, [1, 1], [2307, 44032]),
  (3, [2, 1], [2307, 879, 44032]),
  (3, [1, 1], [2307, 55177]),
  (3, [2, 1], [2307, 879, 55177]),
  (2, [1, 1], [2307, 169]),
  (2, [2, 1], [2307, 879, 169]),
  (1, [2], [2307, 879]),
  (1, [3], [2307, 879, 879]),
  (1, [2], [2307, 8205]),
  (1, [3], [2307, 879, 8205]),
  (2, [1, 1], [2307, 32]),
  (2, [2, 1], [2307, 879, 32]),
  (2, [1, 1], [43388, 32]),
  (2, [2, 1], [43388, 879, 32]),
  (2, [1, 1], [43388, 13]),
  (2, [2, 1], [43388, 879, 13]),
  (2, [1, 1], [43388, 10]),
  (2, [2, 1], [43388, 879, 10]),
  (2, [1, 1], [43388, 1]),
  (2, [2, 1], [43388, 879, 1]),
  (1, [2], [43388, 879]),
  (1, [3], [43388, 879, 879]),
  (2, [1, 1], [43388, 127462]),
  (2, [2, 1], [43388, 879, 127462]),
  (2, [1, 1], [43388, 1541]),
  (2, [2, 1], [43388, 879, 1541]),
  (1, [2], [43388, 2307]),
  (1, [3], [43388, 879, 2307]),
  (1, [2], [43388, 43388]),
  (2, [2, 1], [43388, 879, 43388]),
  (1, [2], [43388, 4519]),
  (2, [2, 1], [43388, 879, 4519]),
  (2, [1, 1], [43388, 4607]),
  (2, [2, 1], [43388, 879, 4607]),
  (1, [2], [43388, 44032]),
  (3, [2, 1], [43388, 879, 44032]),
  (1, [2], [43388, 55177]),
  (3, [2, 1], [43388, 879, 55177]),
  (2, [1, 1], [43388, 169]),
  (2, [2, 1], [43388, 879, 169])] widthTest = true := by decide +kernel

set_option maxRecDepth 100000 in
example : List.all [
  (1, [2], [43388, 879]),
  (1, [3], [43388, 879, 879]),
  (1, [2], [43388, 8205]),
  (1, [3], [43388, 879, 8205]),
  (2, [1, 1], [43388, 32]),
  (2, [2, 1], [43388, 879, 32]),
  (2, [1, 1], [4519, 32]),
  (2, [2, 1], [4519, 879, 32]),
  (2, [1, 1], [4519, 13]),
  (2, [2, 1], [4519, 879, 13]),
  (2, [1, 1], [4519, 10]),
  (2, [2, 1], [4519, 879, 10]),
  (2, [1, 1], [4519, 1]),
  (2, [2, 1], [4519, 879, 1]),
  (1, [2], [4519, 879]),
  (1, [3], [4519, 879, 879]),
  (2, [1, 1], [4519, 127462]),
  (2, [2, 1], [4519, 879, 127462]),
  (2, [1, 1], [4519, 1541]),
  (2, [2, 1], [4519, 879, 1541]),
  (1, [2], [4519, 2307]),
  (1, [3], [4519, 879, 2307]),
  (2, [1, 1], [4519, 43388]),
  (2, [2, 1], [4519, 879, 43388]),
  (1, [2], [4519, 4519]),
  (2, [2, 1], [4519, 879, 4519]),
  (1, [2], [4519, 4607]),
  (2, [2, 1], [4519, 879, 4607]),
  (3, [1, 1], [4519, 44032]),
  (3, [2, 1], [4519, 879, 44032]),
  (3, [1, 1], [4519, 55177]),
  (3, [2, 1], [4519, 879, 55177]),
  (2, [1, 1], [4519, 169]),
  (2, [2, 1], [4519, 879, 169]),
  (1, [2], [4519, 879]),
  (1, [3], [4519, 879, 879]),
  (1, [2], [4519, 8205]),
  (1, [3], [4519, 879, 8205]),
  (2, [1, 1], [4519, 32]),
  (2, [2, 1], [4519, 879, 32]),
  (2, [1, 1], [4607, 32]),
  (2, [2, 1], [4607, 879, 32]),
  (2, [1, 1], [4607, 13]),
  (2, [2, 1], [4607, 879, 13]),
  (2, [1, 1], [4607, 10]),
  (2, [2, 1], [4607, 879, 10]),
  (2, [1, 1], [4607, 1]),
  (2, [2, 1], [4607, 879, 1]),
  (1, [2], [4607, 879]),
  (1, [3], [4607, 879, 879]),
  (2, [1, 1], [4607, 127462]),
  (2, [2, 1], [4607, 879, 127462]),
  (2, [1, 1], [4607, 1541]),
  (2, [2, 1], [4607, 879, 1541]),
  (1, [2], [4607, 2307]),
  (1, [3], [4607, 879, 2307]),
  (2, [1, 1], [4607, 43388]),
  (2, [2, 1], [4607, 879, 43388]),
  (2, [1, 1], [4607, 4519]),
  (2, [2, 1], [4607, 879, 4519]),
  (1, [2], [4607, 4607]),
  (2, [2, 1], [4607, 879, 4607]),
  (3, [1, 1], [4607, 44032]),
  (3, [2, 1], [4607, 879, 44032]),
  (3, [1, 1], [4607, 55177]),
  (3, [2, 1], [4607, 879, 55177]),
  (2, [1, 1], [4607, 169]),
  (2, [2, 1], [4607, 879, 169]),
  (1, [2], [4607, 879]),
  (1, [3], [4607, 879, 879]),
  (1, [2], [4607, 8205]),
  (1, [3], [4607, 879, 8205]),
  (2, [1, 1], [4607, 32]),
  (2, [2, 1], [4607, 879, 32]),
  (3, [1, 1], [44032, 32]),
  (3, [2, 1], [44032, 879, 32]),
  (3, [1, 1], [44032, 13]),
  (3, [2, 1], [44032, 879, 13]),
  (3, [1, 1], [44032, 10]),
  (3, [2, 1], [44032, 879, 10]),
  (3, [1, 1], [44032, 1]),
  (3, [2, 1], [44032, 879, 1]),
  (2, [2], [44032, 879]),
  (2, [3], [44032, 879, 879]),
  (3, [1, 1], [44032, 127462]),
  (3, [2, 1], [44032, 879, 127462]),
  (3, [1, 1], [44032, 1541]),
  (3, [2, 1], [44032, 879, 1541]),
  (2, [2], [44032, 2307]),
  (2, [3], [44032, 879, 2307]),
  (3, [1, 1], [44032, 43388]),
  (3, [2, 1], [44032, 879, 43388]),
  (2, [2], [44032, 4519]),
  (3, [2, 1], [44032, 879, 4519]),
  (2, [2], [44032, 4607]),
  (3, [2, 1], [44032, 879, 4607]),
  (4, [1, 1], [44032, 44032]),
  (4, [2, 1], [44032, 879, 44032]),
  (4, [1, 1], [44032, 55177]),
  (4, [2, 1], [44032, 879, 55177])] widthTest = true := by decide +kernel

set_option maxRecDepth 100000 in
example : List.all [
  (3, [1, 1], [44032, 169]),
  (3, [2, 1], [44032, 879, 169]),
  (2, [2], [44032, 879]),
  (2, [3], [44032, 879, 879]),
  (2, [2], [44032, 8205]),
  (2, [3], [44032, 879, 8205]),
  (3, [1, 1], [44032, 32]),
  (3, [2, 1], [44032, 879, 32]),
  (3, [1, 1], [55177, 32]),
  (3, [2, 1], [55177, 879, 32]),
  (3, [1, 1], [55177, 13]),
  (3, [2, 1], [55177, 879, 13]),
  (3, [1, 1], [55177, 10]),
  (3, [2, 1], [55177, 879, 10]),
  (3, [1, 1], [55177, 1]),
  (3, [2, 1], [55177, 879, 1]),
  (2, [2], [55177, 879]),
  (2, [3], [55177, 879, 879]),
  (3, [1, 1], [55177, 127462]),
  (3, [2, 1], [55177, 879, 127462]),
  (3, [1, 1], [55177, 1541]),
  (3, [2, 1], [55177, 879, 1541]),
  (2, [2], [55177, 2307]),
  (2, [3], [55177, 879, 2307]),
  (3, [1, 1], [55177, 43388]),
  (3, [2, 1], [55177, 879, 43388]),
  (3, [1, 1], [55177, 4519]),
  (3, [2, 1], [55177, 879, 4519]),
  (2, [2], [55177, 4607]),
  (3, [2, 1], [55177, 879, 4607]),
  (4, [1, 1], [55177, 44032]),
  (4, [2, 1], [55177, 879, 44032]),
  (4, [1, 1], [55177, 55177]),
  (4, [2, 1], [55177, 879, 55177]),
  (3, [1, 1], [55177, 169]),
  (3, [2, 1], [55177, 879, 169]),
  (2, [2], [55177, 879]),
  (2, [3], [55177, 879, 879]),
  (2, [2], [55177, 8205]),
  (2, [3], [55177, 879, 8205]),
  (3, [1, 1], [55177, 32]),
  (3, [2, 1], [55177, 879, 32]),
  (2, [1, 1], [169, 32]),
  (2, [2, 1], [169, 879, 32]),
  (2, [1, 1], [169, 13]),
  (2, [2, 1], [169, 879, 13]),
  (2, [1, 1], [169, 10]),
  (2, [2, 1], [169, 879, 10]),
  (2, [1, 1], [169, 1]),
  (2, [2, 1], [169, 879, 1]),
  (1, [2], [169, 879]),
  (1, [3], [169, 879, 879]),
  (2, [1, 1], [169, 127462]),
  (2, [2, 1], [169, 879, 127462]),
  (2, [1, 1], [169, 1541]),
  (2, [2, 1], [169, 879, 1541]),
  (1, [2], [169, 2307]),
  (1, [3], [169, 879, 2307]),
  (2, [1, 1], [169, 43388]),
  (2, [2, 1], [169, 879, 43388]),
  (2, [1, 1], [169, 4519]),
  (2, [2, 1], [169, 879, 4519]),
  (2, [1, 1], [169, 4607]),
  (2, [2, 1], [169, 879, 4607]),
  (3, [1, 1], [169, 44032]),
  (3, [2, 1], [169, 879, 44032]),
  (3, [1, 1], [169, 55177]),
  (3, [2, 1], [169, 879, 55177]),
  (2, [1, 1], [169, 169]),
  (2, [2, 1], [169, 879, 169]),
  (1, [2], [169, 879]),
  (1, [3], [169, 879, 879]),
  (1, [2], [169, 8205]),
  (1, [3], [169, 879, 8205]),
  (2, [1, 1], [169, 32]),
  (2, [2, 1], [169, 879, 32]),
  (2, [1, 1], [879, 32]),
  (2, [2, 1], [879, 879, 32]),
  (2, [1, 1], [879, 13]),
  (2, [2, 1], [879, 879, 13]),
  (2, [1, 1], [879, 10]),
  (2, [2, 1], [879, 879, 10]),
  (2, [1, 1], [879, 1]),
  (2, [2, 1], [879, 879, 1]),
  (1, [2], [879, 879]),
  (1, [3], [879, 879, 879]),
  (2, [1, 1], [879, 127462]),
  (2, [2, 1], [879, 879, 127462]),
  (2, [1, 1], [879, 1541]),
  (2, [2, 1], [879, 879, 1541]),
  (1, [2], [879, 2307]),
  (1, [3], [879, 879, 2307]),
  (2, [1, 1], [879, 43388]),
  (2, [2, 1], [879, 879, 43388]),
  (2, [1, 1], [879, 4519]),
  (2, [2, 1], [879, 879, 4519]),
  (2, [1, 1], [879, 4607]),
  (2, [2, 1], [879, 879, 4607]),
  (3, [1, 1], [879, 44032]),
  (3, [2, 1], [879, 879, 44032])] widthTest = true := by decide +kernel

set_option maxRecDepth 100000 in
example : List.all [
  (3, [1, 1], [879, 55177]),
  (3, [2, 1], [879, 879, 55177]),
  (2, [1, 1], [879, 169]),
  (2, [2, 1], [879, 879, 169]),
  (1, [2], [879, 879]),
  (1, [3], [879, 879, 879]),
  (1, [2], [879, 8205]),
  (1, [3], [879, 879, 8205]),
  (2, [1, 1], [879, 32]),
  (2, [2, 1], [879, 879, 32]),
  (2, [1, 1], [8205, 32]),
  (2, [2, 1], [8205, 879, 32]),
  (2, [1, 1], [8205, 13]),
  (2, [2, 1], [8205, 879, 13]),
  (2, [1, 1], [8205, 10]),
  (2, [2, 1], [8205, 879, 10]),
  (2, [1, 1], [8205, 1]),
  (2, [2, 1], [8205, 879, 1]),
  (1, [2], [8205, 879]),
  (1, [3], [8205, 879, 879]),
  (2, [1, 1], [8205, 127462]),
  (2, [2, 1], [8205, 879, 127462]),
  (2, [1, 1], [8205, 1541]),
  (2, [2, 1], [8205, 879, 1541]),
  (1, [2], [8205, 2307]),
  (1, [3], [8205, 879, 2307]),
  (2, [1, 1], [8205, 43388]),
  (2, [2, 1], [8205, 879, 43388]),
  (2, [1, 1], [8205, 4519]),
  (2, [2, 1], [8205, 879, 4519]),
  (2, [1, 1], [8205, 4607]),
  (2, [2, 1], [8205, 879, 4607]),
  (3, [1, 1], [8205, 44032]),
  (3, [2, 1], [8205, 879, 44032]),
  (3, [1, 1], [8205, 55177]),
  (3, [2, 1], [8205, 879, 55177]),
  (2, [1, 1], [8205, 169]),
  (2, [2, 1], [8205, 879, 169]),
  (1, [2], [8205, 879]),
  (1, [3], [8205, 879, 879]),
  (1, [2], [8205, 8205]),
  (1, [3], [8205, 879, 8205]),
  (2, [1, 1], [8205, 32]),
  (2, [2, 1], [8205, 879, 32]),
  (2, [1, 1], [32, 32]),
  (2, [2, 1], [32, 879, 32]),
  (2, [1, 1], [32, 13]),
  (2, [2, 1], [32, 879, 13]),
  (2, [1, 1], [32, 10]),
  (2, [2, 1], [32, 879, 10]),
  (2, [1, 1], [32, 1]),
  (2, [2, 1], [32, 879, 1]),
  (1, [2], [32, 879]),
  (1, [3], [32, 879, 879]),
  (2, [1, 1], [32, 127462]),
  (2, [2, 1], [32, 879, 127462]),
  (2, [1, 1], [32, 1541]),
  (2, [2, 1], [32, 879, 1541]),
  (1, [2], [32, 2307]),
  (1, [3], [32, 879, 2307]),
  (2, [1, 1], [32, 43388]),
  (2, [2, 1], [32, 879, 43388]),
  (2, [1, 1], [32, 4519]),
  (2, [2, 1], [32, 879, 4519]),
  (2, [1, 1], [32, 4607]),
  (2, [2, 1], [32, 879, 4607]),
  (3, [1, 1], [32, 44032]),
  (3, [2, 1], [32, 879, 44032]),
  (3, [1, 1], [32, 55177]),
  (3, [2, 1], [32, 879, 55177]),
  (2, [1, 1], [32, 169]),
  (2, [2, 1], [32, 879, 169]),
  (1, [2], [32, 879]),
  (1, [3], [32, 879, 879]),
  (1, [2], [32, 8205]),
  (1, [3], [32, 879, 8205]),
  (2, [1, 1], [32, 32]),
  (2, [2, 1], [32, 879, 32]),
  (4, [2, 1, 1, 1], [13, 10, 32, 10, 879]),
  (1, [2], [32, 879]),
  (2, [2, 1], [32, 8205, 32]),
  (2, [2, 1], [32, 8205, 32]),
  (1, [2], [43388, 43388]),
  (3, [2, 1], [44032, 4607, 43388]),
  (3, [2, 1], [55177, 4607, 43388]),
  (3, [2, 1, 1], [127462, 127462, 127462, 32]),
  (4, [1, 2, 1, 1], [32, 127462, 127462, 127462, 32]),
  (4, [1, 3, 1, 1], [32, 127462, 127462, 8205, 127462, 32]),
  (4, [1, 2, 2, 1], [32, 127462, 8205, 127462, 127462, 32]),
  (4, [1, 2, 2, 1], [32, 127462, 127462, 127462, 127462, 32]),
  (1, [2], [32, 8205]),
  (2, [2, 1], [32, 879, 32]),
  (2, [2, 1], [32, 2307, 32]),
  (2, [1, 2], [32, 1541, 32]),
  (2, [2, 1], [169, 879, 169]),
  (2, [2, 1], [32, 879, 169]),
  (2, [2, 3], [32, 879, 169, 8205, 169]),
  (1, [6], [169, 879, 879, 8205, 169, 879]),
  (1, [3], [169, 8205, 169]),
  (2, [2, 1], [32, 8205, 169])] widthTest = true := by decide +kernel

set_option maxRecDepth 100000 in
example : List.all [
  (1, [3], [169, 8205, 169]),
  (2, [2, 1], [169, 8205, 32]),
  (4, [1, 1], [9002, 9002]),
  (4, [2, 1], [9002, 879, 9002]),
  (3, [1, 1], [9002, 13]),
  (3, [2, 1], [9002, 12335, 13]),
  (3, [1, 1], [9002, 10]),
  (3, [2, 1], [9002, 12335, 10]),
  (3, [1, 1], [9002, 1]),
  (2, [2, 1], [32, 12335, 1]),
  (1, [2], [32, 12335]),
  (1, [3], [32, 12335, 12335]),
  (3, [1, 1], [9002, 127462]),
  (3, [2, 1], [9002, 12335, 127462]),
  (3, [1, 1], [9002, 1541]),
  (2, [2, 1], [32, 12335, 1541]),
  (2, [2], [9002, 2307]),
  (1, [3], [32, 12335, 2307]),
  (4, [1, 1], [9002, 4447]),
  (3, [2, 1], [32, 12335, 4447]),
  (3, [1, 1], [9002, 4519]),
  (2, [2, 1], [32, 12335, 4519]),
  (3, [1, 1], [9002, 4607]),
  (2, [2, 1], [32, 12335, 4607]),
  (4, [1, 1], [9002, 44032]),
  (4, [2, 1], [9002, 12335, 44032]),
  (4, [1, 1], [9002, 55177]),
  (4, [2, 1], [9002, 12335, 55177]),
  (4, [1, 1], [9002, 12336]),
  (4, [2, 1], [9002, 12335, 12336]),
  (2, [2], [9002, 12335]),
  (1, [3], [32, 12335, 12335]),
  (2, [2], [9002, 8205]),
  (2, [3], [9002, 12335, 8205]),
  (4, [1, 1], [9002, 9002]),
  (4, [2, 1], [9002, 12335, 9002]),
  (3, [1, 1], [13, 9002]),
  (5, [1, 1, 1], [13, 12335, 9002]),
  (4, [1, 1, 1], [13, 12335, 13]),
  (4, [1, 1, 1], [13, 12335, 10]),
  (4, [1, 1, 1], [13, 12335, 1]),
  (3, [1, 1], [13, 12335]),
  (3, [1, 2], [13, 12335, 12335]),
  (4, [1, 1, 1], [13, 12335, 127462]),
  (4, [1, 1, 1], [13, 12335, 1541]),
  (3, [1, 2], [13, 12335, 2307]),
  (3, [1, 1], [13, 4447]),
  (5, [1, 1, 1], [13, 12335, 4447]),
  (4, [1, 1, 1], [13, 12335, 4519]),
  (4, [1, 1, 1], [13, 12335, 4607]),
  (3, [1, 1], [13, 44032]),
  (5, [1, 1, 1], [13, 12335, 44032]),
  (5, [1, 1, 1], [13, 12335, 55177]),
  (3, [1, 1], [13, 12336]),
  (5, [1, 1, 1], [13, 12335, 12336]),
  (3, [1, 1], [13, 12335]),
  (3, [1, 2], [13, 12335, 8205]),
  (3, [1, 1], [13, 9002]),
  (5, [1, 1, 1], [13, 12335, 9002]),
  (3, [1, 1], [10, 9002]),
  (5, [1, 1, 1], [10, 12335, 9002]),
  (4, [1, 1, 1], [10, 12335, 13]),
  (4, [1, 1, 1], [10, 12335, 10]),
  (4, [1, 1, 1], [10, 12335, 1]),
  (3, [1, 1], [10, 12335]),
  (3, [1, 2], [10, 12335, 12335]),
  (4, [1, 1, 1], [10, 12335, 127462]),
  (4, [1, 1, 1], [10, 12335, 1541]),
  (3, [1, 2], [10, 12335, 2307]),
  (3, [1, 1], [10, 4447]),
  (5, [1, 1, 1], [10, 12335, 4447]),
  (4, [1, 1, 1], [10, 12335, 4519]),
  (4, [1, 1, 1], [10, 12335, 4607]),
  (5, [1, 1, 1], [10, 12335, 44032]),
  (5, [1, 1, 1], [10, 12335, 55177]),
  (3, [1, 1], [10, 12336]),
  (5, [1, 1, 1], [10, 12335, 12336]),
  (3, [1, 1], [10, 12335]),
  (3, [1, 2], [10, 12335, 12335]),
  (3, [1, 2], [10, 12335, 8205]),
  (3, [1, 1], [10, 9002]),
  (5, [1, 1, 1], [10, 12335, 9002]),
  (3, [1, 1], [1, 9002]),
  (5, [1, 1, 1], [1, 12335, 9002]),
  (4, [1, 1, 1], [1, 12335, 13]),
  (4, [1, 1, 1], [1, 12335, 10]),
  (4, [1, 1, 1], [1, 12335, 1]),
  (3, [1, 1], [1, 12335]),
  (3, [1, 2], [1, 12335, 12335]),
  (4, [1, 1, 1], [1, 12335, 127462]),
  (4, [1, 1, 1], [1, 12335, 1541]),
  (3, [1, 2], [1, 12335, 2307]),
  (3, [1, 1], [1, 4447]),
  (5, [1, 1, 1], [1, 12335, 4447]),
  (4, [1, 1, 1], [1, 12335, 4519]),
  (4, [1, 1, 1], [1, 12335, 4607]),
  (5, [1, 1, 1], [1, 12335, 44032]),
  (5, [1, 1, 1], [1, 12335, 55177]),
  (3, [1, 1], [1, 12336]),
  (5, [1, 1, 1], [1, 12335, 12336])] widthTest = true := by decide +kernel

set_option maxRecDepth 100000 in
example : List.all [
  (3, [1, 1], [1, 12335]),
  (3, [1, 2], [1, 12335, 12335]),
  (3, [1, 2], [1, 12335, 8205]),
  (3, [1, 1], [1, 9002]),
  (5, [1, 1, 1], [1, 12335, 9002]),
  (4, [1, 1], [12335, 9002]),
  (4, [2, 1], [12335, 12335, 9002]),
  (3, [1, 1], [12335, 13]),
  (3, [2, 1], [12335, 12335, 13]),
  (3, [1, 1], [12335, 10]),
  (2, [2, 1], [879, 12335, 10]),
  (3, [1, 1], [12335, 1]),
  (2, [2, 1], [879, 12335, 1]),
  (1, [2], [879, 12335]),
  (2, [3], [12335, 879, 879]),
  (3, [1, 1], [12335, 127462]),
  (3, [2, 1], [12335, 12335, 127462]),
  (3, [1, 1], [12335, 1541]),
  (3, [2, 1], [12335, 12335, 1541]),
  (2, [2], [12335, 2307]),
  (2, [3], [12335, 12335, 2307]),
  (4, [1, 1], [12335, 4447]),
  (4, [2, 1], [12335, 879, 4447]),
  (3, [1, 1], [12335, 4519]),
  (3, [2, 1], [12335, 12335, 4519]),
  (3, [1, 1], [12335, 4607]),
  (3, [2, 1], [12335, 12335, 4607]),
  (4, [1, 1], [12335, 44032]),
  (4, [2, 1], [12335, 12335, 44032]),
  (4, [1, 1], [12335, 55177]),
  (4, [2, 1], [12335, 12335, 55177]),
  (4, [1, 1], [12335, 12336]),
  (3, [2, 1], [879, 12335, 12336]),
  (2, [2], [12335, 12335]),
  (2, [3], [12335, 12335, 12335]),
  (2, [2], [12335, 8205]),
  (2, [3], [12335, 12335, 8205]),
  (4, [1, 1], [12335, 9002]),
  (4, [2, 1], [12335, 12335, 9002]),
  (3, [1, 1], [127462, 9002]),
  (3, [2, 1], [127462, 12335, 9002]),
  (2, [2, 1], [127462, 12335, 13]),
  (2, [2, 1], [127462, 12335, 10]),
  (2, [2, 1], [127462, 12335, 1]),
  (1, [2], [127462, 12335]),
  (1, [3], [127462, 12335, 12335]),
  (2, [2, 1], [127462, 12335, 127462]),
  (2, [2, 1], [127462, 12335, 1541]),
  (1, [3], [127462, 12335, 2307]),
  (3, [1, 1], [127462, 4447]),
  (3, [2, 1], [127462, 12335, 4447]),
  (2, [2, 1], [127462, 12335, 4519]),
  (2, [2, 1], [127462, 12335, 4607]),
  (3, [2, 1], [127462, 12335, 44032]),
  (3, [1, 1], [127462, 12336]),
  (3, [2, 1], [127462, 12335, 12336]),
  (1, [2], [127462, 12335]),
  (1, [3], [127462, 12335, 12335]),
  (1, [3], [127462, 12335, 8205]),
  (3, [1, 1], [127462, 9002]),
  (3, [2, 1], [127462, 12335, 9002]),
  (1, [2], [1541, 9002]),
  (3, [2, 1], [1541, 12335, 9002]),
  (2, [2, 1], [1541, 12335, 13]),
  (2, [2, 1], [1541, 12335, 10]),
  (2, [2, 1], [1541, 12335, 1]),
  (1, [2], [1541, 12335]),
  (1, [3], [1541, 12335, 12335]),
  (2, [2, 1], [1541, 12335, 127462]),
  (2, [2, 1], [1541, 12335, 1541]),
  (1, [3], [1541, 12335, 2307]),
  (1, [2], [1541, 4447]),
  (3, [2, 1], [1541, 12335, 4447]),
  (2, [2, 1], [1541, 12335, 4519]),
  (2, [2, 1], [1541, 12335, 4607]),
  (3, [2, 1], [1541, 12335, 44032]),
  (3, [2, 1], [1541, 12335, 55177]),
  (1, [2], [1541, 12336]),
  (3, [2, 1], [1541, 12335, 12336]),
  (1, [2], [1541, 12335]),
  (1, [3], [1541, 12335, 12335]),
  (1, [3], [1541, 12335, 8205]),
  (1, [2], [1541, 9002]),
  (3, [2, 1], [1541, 12335, 9002]),
  (3, [1, 1], [2307, 9002]),
  (3, [2, 1], [2307, 12335, 9002]),
  (2, [2, 1], [2307, 12335, 13]),
  (2, [2, 1], [2307, 12335, 10]),
  (2, [2, 1], [2307, 12335, 1]),
  (1, [2], [2307, 12335]),
  (1, [3], [2307, 12335, 12335]),
  (2, [2, 1], [2307, 12335, 127462]),
  (2, [2, 1], [2307, 12335, 1541]),
  (1, [3], [2307, 12335, 2307]),
  (3, [1, 1], [2307, 4447]),
  (3, [2, 1], [2307, 12335, 4447]),
  (2, [2, 1], [2307, 12335, 4519]),
  (2, [2, 1], [2307, 12335, 4607]),
  (3, [2, 1], [2307, 12335, 44032]),
  (3, [2, 1], [2307, 12335, 55177])] widthTest = true := by decide +kernel

set_option maxRecDepth 100000 in
example : List.all [
  (3, [1, 1], [2307, 12336]),
  (3, [2, 1], [2307, 12335, 12336]),
  (1, [2], [2307, 12335]),
  (1, [3], [2307, 12335, 12335]),
  (1, [3], [2307, 12335, 8205]),
  (3, [1, 1], [2307, 9002]),
  (3, [2, 1], [2307, 12335, 9002]),
  (4, [1, 1], [4447, 9002]),
  (4, [2, 1], [4447, 12335, 9002]),
  (3, [1, 1], [4447, 13]),
  (3, [2, 1], [4447, 12335, 13]),
  (3, [1, 1], [4447, 10]),
  (3, [2, 1], [4447, 12335, 10]),
  (3, [1, 1], [4447, 1]),
  (3, [2, 1], [4447, 12335, 1]),
  (2, [2], [4447, 12335]),
  (2, [3], [4447, 12335, 12335]),
  (3, [1, 1], [4447, 127462]),
  (3, [2, 1], [4447, 12335, 127462]),
  (3, [1, 1], [4447, 1541]),
  (3, [2, 1], [4447, 12335, 1541]),
  (2, [2], [4447, 2307]),
  (2, [3], [4447, 12335, 2307]),
  (2, [2], [4447, 4447]),
  (4, [2, 1], [4447, 12335, 4447]),
  (2, [2], [4447, 4519]),
  (3, [2, 1], [4447, 12335, 4519]),
  (3, [1, 1], [4447, 4607]),
  (3, [2, 1], [4447, 12335, 4607]),
  (2, [2], [4447, 44032]),
  (4, [2, 1], [4447, 12335, 44032]),
  (2, [2], [4447, 55177]),
  (4, [2, 1], [4447, 12335, 55177]),
  (4, [1, 1], [4447, 12336]),
  (4, [2, 1], [4447, 12335, 12336]),
  (2, [2], [4447, 12335]),
  (2, [3], [4447, 12335, 12335]),
  (2, [2], [4447, 8205]),
  (2, [3], [4447, 12335, 8205]),
  (4, [1, 1], [4447, 9002]),
  (4, [2, 1], [4447, 12335, 9002]),
  (3, [1, 1], [4519, 9002]),
  (3, [2, 1], [4519, 12335, 9002]),
  (2, [2, 1], [4519, 12335, 13]),
  (2, [2, 1], [4519, 12335, 10]),
  (2, [2, 1], [4519, 12335, 1]),
  (1, [2], [4519, 12335]),
  (1, [3], [4519, 12335, 12335]),
  (2, [2, 1], [4519, 12335, 127462]),
  (2, [2, 1], [4519, 12335, 1541]),
  (1, [3], [4519, 12335, 2307]),
  (3, [1, 1], [4519, 4447]),
  (3, [2, 1], [4519, 12335, 4447]),
  (2, [2, 1], [4519, 12335, 4519]),
  (2, [2, 1], [4519, 12335, 4607]),
  (3, [2, 1], [4519, 12335, 44032]),
  (3, [1, 1], [4519, 55177]),
  (3, [2, 1], [4519, 12335, 55177]),
  (3, [1, 1], [4519, 12336]),
  (3, [2, 1], [4519, 12335, 12336]),
  (1, [2], [4519, 12335]),
  (1, [3], [4519, 12335, 12335]),
  (1, [3], [4519, 12335, 8205]),
  (3, [1, 1], [4519, 9002]),
  (3, [2, 1], [4519, 12335, 9002]),
  (3, [1, 1], [4607, 9002]),
  (3, [2, 1], [4607, 12335, 9002]),
  (2, [2, 1], [4607, 12335, 13]),
  (2, [2, 1], [4607, 12335, 10]),
  (2, [2, 1], [4607, 12335, 1]),
  (1, [2], [4607, 12335]),
  (1, [3], [4607, 12335, 12335]),
  (2, [2, 1], [4607, 12335, 127462]),
  (2, [2, 1], [4607, 12335, 1541]),
  (1, [3], [4607, 12335, 2307]),
  (3, [2, 1], [4607, 12335, 4447]),
  (2, [2, 1], [4607, 12335, 4519]),
  (2, [2, 1], [4607, 12335, 4607]),
  (3, [2, 1], [4607, 12335, 44032]),
  (3, [2, 1], [4607, 12335, 55177]),
  (3, [1, 1], [4607, 12336]),
  (3, [2, 1], [4607, 12335, 12336]),
  (1, [2], [4607, 12335]),
  (1, [3], [4607, 12335, 12335]),
  (1, [3], [4607, 12335, 8205]),
  (3, [1, 1], [4607, 9002]),
  (3, [2, 1], [4607, 12335, 9002]),
  (4, [1, 1], [44032, 9002]),
  (4, [2, 1], [44032, 12335, 9002]),
  (3, [2, 1], [44032, 12335, 13]),
  (3, [2, 1], [44032, 12335, 10]),
  (3, [2, 1], [44032, 12335, 1]),
  (2, [2], [44032, 12335]),
  (2, [3], [44032, 12335, 12335]),
  (3, [2, 1], [44032, 12335, 127462]),
  (3, [2, 1], [44032, 12335, 1541]),
  (2, [3], [44032, 12335, 2307]),
  (4, [1, 1], [44032, 4447]),
  (4, [2, 1], [44032, 12335, 4447]),
  (3, [2, 1], [44032, 12335, 4519])] widthTest = true := by decide +kernel

set_option maxRecDepth 100000 in
example : List.all [
  (3, [2, 1], [44032, 12335, 4607]),
  (4, [1, 1], [44032, 12336]),
  (4, [2, 1], [44032, 12335, 12336]),
  (2, [2], [44032, 12335]),
  (2, [3], [44032, 12335, 12335]),
  (2, [3], [44032, 12335, 8205]),
  (4, [1, 1], [44032, 9002]),
  (4, [2, 1], [44032, 12335, 9002]),
  (4, [1, 1], [55177, 9002]),
  (4, [2, 1], [55177, 12335, 9002]),
  (3, [2, 1], [55177, 12335, 13]),
  (3, [2, 1], [55177, 12335, 10]),
  (3, [2, 1], [55177, 12335, 1]),
  (2, [2], [55177, 12335]),
  (2, [3], [55177, 12335, 12335]),
  (3, [2, 1], [55177, 12335, 127462]),
  (3, [2, 1], [55177, 12335, 1541]),
  (2, [3], [55177, 12335, 2307]),
  (4, [1, 1], [55177, 4447]),
  (4, [2, 1], [55177, 12335, 4447]),
  (3, [2, 1], [55177, 12335, 4519]),
  (3, [2, 1], [55177, 12335, 4607]),
  (4, [2, 1], [55177, 12335, 44032]),
  (4, [2, 1], [55177, 12335, 55177]),
  (4, [1, 1], [55177, 12336]),
  (4, [2, 1], [55177, 12335, 12336]),
  (2, [2], [55177, 12335]),
  (2, [3], [55177, 12335, 12335]),
  (2, [3], [55177, 12335, 8205]),
  (4, [1, 1], [55177, 9002]),
  (4, [2, 1], [55177, 12335, 9002]),
  (4, [1, 1], [12336, 9002]),
  (4, [2, 1], [12336, 12335, 9002]),
  (3, [1, 1], [12336, 13]),
  (3, [2, 1], [12336, 12335, 13]),
  (3, [1, 1], [12336, 10]),
  (3, [2, 1], [12336, 12335, 10]),
  (3, [1, 1], [12336, 1]),
  (3, [2, 1], [12336, 12335, 1]),
  (2, [2], [12336, 12335]),
  (2, [3], [12336, 12335, 12335]),
  (3, [1, 1], [12336, 127462]),
  (3, [2, 1], [12336, 12335, 127462]),
  (3, [1, 1], [12336, 1541]),
  (3, [2, 1], [12336, 12335, 1541]),
  (2, [2], [12336, 2307]),
  (2, [3], [12336, 12335, 2307]),
  (4, [1, 1], [12336, 4447]),
  (4, [2, 1], [12336, 12335, 4447]),
  (3, [1, 1], [12336, 4519]),
  (3, [2, 1], [12336, 12335, 4519]),
  (3, [1, 1], [12336, 4607]),
  (3, [2, 1], [12336, 12335, 4607]),
  (4, [1, 1], [12336, 44032]),
  (4, [2, 1], [12336, 12335, 44032]),
  (4, [1, 1], [12336, 55177]),
  (4, [2, 1], [12336, 12335, 55177]),
  (4, [1, 1], [12336, 12336]),
  (4, [2, 1], [12336, 12335, 12336]),
  (2, [2], [12336, 12335]),
  (2, [3], [12336, 12335, 12335]),
  (2, [2], [12336, 8205]),
  (2, [3], [12336, 12335, 8205]),
  (4, [1, 1], [12336, 9002]),
  (4, [2, 1], [12336, 12335, 9002]),
  (4, [1, 1], [12335, 9002]),
  (4, [2, 1], [12335, 12335, 9002]),
  (3, [1, 1], [12335, 13]),
  (3, [2, 1], [12335, 12335, 13]),
  (3, [1, 1], [12335, 10]),
  (3, [2, 1], [12335, 12335, 10]),
  (3, [1, 1], [12335, 1]),
  (3, [2, 1], [12335, 12335, 1]),
  (2, [2], [12335, 12335]),
  (2, [3], [12335, 12335, 12335]),
  (3, [1, 1], [12335, 127462]),
  (3, [2, 1], [12335, 12335, 127462]),
  (3, [1, 1], [12335, 1541]),
  (3, [2, 1], [12335, 12335, 1541]),
  (2, [2], [12335, 2307]),
  (2, [3], [12335, 12335, 2307]),
  (4, [1, 1], [12335, 4447]),
  (4, [2, 1], [12335, 12335, 4447]),
  (3, [1, 1], [12335, 4519]),
  (3, [2, 1], [12335, 12335, 4519]),
  (3, [1, 1], [12335, 4607]),
  (3, [2, 1], [12335, 12335, 4607]),
  (4, [1, 1], [12335, 44032]),
  (4, [2, 1], [12335, 12335, 44032]),
  (4, [1, 1], [12335, 55177]),
  (4, [2, 1], [12335, 12335, 55177]),
  (4, [1, 1], [12335, 12336]),
  (4, [2, 1], [12335, 12335, 12336]),
  (2, [2], [12335, 12335]),
  (2, [3], [12335, 12335, 12335]),
  (2, [2], [12335, 8205]),
  (2, [3], [12335, 12335, 8205]),
  (4, [1, 1], [12335, 9002]),
  (4, [2, 1], [12335, 12335, 9002]),
  (3, [1, 1], [8205, 9002])] widthTest = true := by decide +kernel

set_option maxRecDepth 100000 in
example : List.all [
  (3, [2, 1], [8205, 12335, 9002]),
  (2, [2, 1], [8205, 12335, 13]),
  (2, [2, 1], [8205, 12335, 10]),
  (2, [2, 1], [8205, 12335, 1]),
  (1, [2], [8205, 12335]),
  (1, [3], [8205, 12335, 12335]),
  (2, [2, 1], [8205, 12335, 127462]),
  (2, [2, 1], [8205, 12335, 1541]),
  (1, [3], [8205, 12335, 2307]),
  (3, [1, 1], [8205, 4447]),
  (3, [2, 1], [8205, 12335, 4447]),
  (2, [2, 1], [8205, 12335, 4519]),
  (2, [2, 1], [8205, 12335, 4607]),
  (3, [2, 1], [8205, 12335, 44032]),
  (3, [2, 1], [8205, 12335, 55177]),
  (3, [1, 1], [8205, 12336]),
  (3, [2, 1], [8205, 12335, 12336]),
  (1, [2], [8205, 12335]),
  (1, [3], [8205, 12335, 12335]),
  (1, [3], [8205, 12335, 8205]),
  (3, [1, 1], [8205, 9002]),
  (3, [2, 1], [8205, 12335, 9002]),
  (4, [1, 1], [9002, 9002]),
  (4, [2, 1], [9002, 12335, 9002]),
  (3, [1, 1], [9002, 13]),
  (3, [2, 1], [9002, 12335, 13]),
  (3, [1, 1], [9002, 10]),
  (3, [2, 1], [9002, 12335, 10]),
  (3, [1, 1], [9002, 1]),
  (3, [2, 1], [9002, 12335, 1]),
  (2, [2], [9002, 12335]),
  (2, [3], [9002, 12335, 12335]),
  (3, [1, 1], [9002, 127462]),
  (3, [2, 1], [9002, 12335, 127462]),
  (3, [1, 1], [9002, 1541]),
  (3, [2, 1], [9002, 12335, 1541]),
  (2, [2], [9002, 2307]),
  (2, [3], [9002, 12335, 2307]),
  (4, [1, 1], [9002, 4447]),
  (4, [2, 1], [9002, 12335, 4447]),
  (3, [1, 1], [9002, 4519]),
  (3, [2, 1], [9002, 12335, 4519]),
  (3, [1, 1], [9002, 4607]),
  (3, [2, 1], [9002, 12335, 4607]),
  (4, [1, 1], [9002, 44032]),
  (4, [2, 1], [9002, 12335, 44032]),
  (4, [1, 1], [9002, 55177]),
  (4, [2, 1], [9002, 12335, 55177]),
  (4, [1, 1], [9002, 12336]),
  (4, [2, 1], [9002, 12335, 12336]),
  (2, [2], [9002, 12335]),
  (2, [3], [9002, 12335, 12335]),
  (2, [2], [9002, 8205]),
  (2, [3], [9002, 12335, 8205]),
  (4, [1, 1], [9002, 9002]),
  (4, [2, 1], [9002, 12335, 9002]),
  (6, [2, 1, 1, 1], [13, 10, 9002, 10, 12335]),
  (2, [2], [9002, 12335]),
  (4, [2, 1], [9002, 8205, 9002]),
  (2, [2], [4447, 4447]),
  (4, [2, 1], [44032, 4607, 4447]),
  (4, [2, 1], [55177, 4607, 4447]),
  (4, [2, 1, 1], [127462, 127462, 127462, 9002]),
  (6, [1, 2, 1, 1], [9002, 127462, 127462, 127462, 9002]),
  (6, [1, 3, 1, 1], [9002, 127462, 127462, 8205, 127462, 9002]),
  (6, [1, 2, 2, 1], [9002, 127462, 8205, 127462, 127462, 9002]),
  (6, [1, 2, 2, 1], [9002, 127462, 127462, 127462, 127462, 9002]),
  (2, [2], [9002, 8205]),
  (4, [2, 1], [9002, 12335, 9002]),
  (4, [2, 1], [9002, 2307, 9002]),
  (3, [1, 2], [9002, 1541, 9002]),
  (4, [2, 1], [12336, 12335, 12336]),
  (4, [2, 1], [9002, 12335, 12336]),
  (4, [2, 3], [9002, 12335, 12336, 8205, 12336]),
  (2, [6], [12336, 12335, 12335, 8205, 12336, 12335]),
  (2, [3], [12336, 8205, 12336]),
  (4, [2, 1], [9002, 8205, 12336]),
  (2, [3], [12336, 8205, 12336]),
  (4, [2, 1], [12336, 8205, 9002])] widthTest = true := by decide +kernel

set_option maxRecDepth 100000 in
example : List.all [
  (2, 131072, [32, 32, 32]),
  (1, 131072, [9002, 32, 32]),
  (1, 262078, [9002, 9002, 32]),
  (0, 131006, [9002, 9002, 32]),
  (5, 196608, [9002, 32, 879, 879, 879, 32, 32]),
  (5, 196608, [9002, 32, 879, 879, 879, 32, 9002]),
  (5, 196608, [9002, 32, 879, 879, 879, 32, 1]),
  (5, 196608, [9002, 32, 879, 879, 879, 32, 169]),
  (5, 196608, [9002, 32, 879, 879, 879, 32, 127462, 127462])] posTest = true := by decide +kernel

end Strf.WidthCalc
