import Verif.Conformance.Base
/-! Generated by tools/conformance.py from /repo/tests: see Verif/Conformance/Base.lean. Tests of the model, not proofs. -/
namespace Strf.Program
open Strf.Format

set_option maxRecDepth 100000 in
example : allPrint [
  /- input_string.cpp 167 -/ (.char16, ⟨[], [], [.str .char [.transcode none, .p 262144, .align (.fill 46), .align (.center 458752)] [191, 95, 240, 159, 145, 136, 95, 95, 95]], false⟩, [46, 65533, 95, 55357, 56392, 46, 46]),
  /- input_string.cpp 169 -/ (.char16, ⟨[], [], [.alignedJoin ⟨32, .right, 458752⟩ [.str .char [.transcode none, .p 262144] [191, 95, 240, 159, 145, 136, 95, 95, 95]]], false⟩, [32, 32, 32, 65533, 95, 55357, 56392]),
  /- input_string.cpp 170 -/ (.char16, ⟨[], [], [.alignedJoin ⟨46, .right, 655360⟩ [.str .char [.transcode none, .p 262144, .align (.fill 126), .align (.left 458752)] [191, 95, 240, 159, 145, 136, 95, 95, 95]]], false⟩, [46, 46, 46, 65533, 95, 55357, 56392, 126, 126, 126]),
  /- input_string.cpp 171 -/ (.char16, ⟨[], [], [.alignedJoin ⟨46, .right, 655360⟩ [.str .char [.transcode none, .p 262144, .align (.fill 126), .align (.left 262144)] [191, 95, 240, 159, 145, 136, 95, 95, 95]]], false⟩, [46, 46, 46, 46, 46, 46, 65533, 95, 55357, 56392]),
  /- input_string.cpp 172 -/ (.char16, ⟨[], [], [.alignedJoin ⟨46, .right, 655360⟩ [.str .char [.transcode none, .p 262144, .align (.fill 126), .align (.left 196608)] [191, 95, 240, 159, 145, 136, 95, 95, 95]]], false⟩, [46, 46, 46, 46, 46, 46, 65533, 95, 55357, 56392]),
  /- input_string.cpp 192 -/ (.char, ⟨[], [.facet (.charset .char) (.charset .char ⟨.sbc 3, true⟩)], [.str .char32 [.unchecked none] [729, 95, 43690]], false⟩, [255, 95, 63]),
  /- input_string.cpp 193 -/ (.char, ⟨[], [.facet (.charset .char) (.charset .char ⟨.sbc 3, true⟩)], [.str .char32 [.unchecked none, .align (.right 393216)] [729, 95, 43690]], false⟩, [32, 32, 32, 255, 95, 63]),
  /- input_string.cpp 194 -/ (.char, ⟨[], [.facet (.charset .char) (.charset .char ⟨.sbc 3, true⟩)], [.str .char32 [.unchecked none, .align (.fill 46), .align (.left 393216)] [729, 95, 43690]], false⟩, [255, 95, 63, 46, 46, 46]),
  /- input_string.cpp 195 -/ (.char, ⟨[], [.facet (.charset .char) (.charset .char ⟨.sbc 3, true⟩)], [.str .char32 [.unchecked none, .align (.fill 46), .align (.right 393216)] [729, 95, 43690]], false⟩, [46, 46, 46, 255, 95, 63]),
  /- input_string.cpp 196 -/ (.char, ⟨[], [.facet (.charset .char) (.charset .char ⟨.sbc 3, true⟩)], [.str .char32 [.unchecked none, .align (.fill 46), .align (.center 393216)] [729, 95, 43690]], false⟩, [46, 255, 95, 63, 46, 46]),
  /- input_string.cpp 198 -/ (.char, ⟨[], [.facet (.charset .char) (.charset .char ⟨.sbc 3, true⟩)], [.alignedJoin ⟨32, .right, 393216⟩ [.str .char32 [.unchecked none] [729, 95, 43690]]], false⟩, [32, 32, 32, 255, 95, 63]),
  /- input_string.cpp 199 -/ (.char, ⟨[], [.facet (.charset .char) (.charset .char ⟨.sbc 3, true⟩)], [.alignedJoin ⟨46, .right, 589824⟩ [.str .char32 [.unchecked none, .align (.fill 126), .align (.left 393216)] [729, 95, 43690]]], false⟩, [46, 46, 46, 255, 95, 63, 126, 126, 126]),
  /- input_string.cpp 200 -/ (.char, ⟨[], [.facet (.charset .char) (.charset .char ⟨.sbc 3, true⟩)], [.alignedJoin ⟨46, .right, 589824⟩ [.str .char32 [.unchecked none, .align (.fill 126), .align (.left 196608)] [729, 95, 43690]]], false⟩, [46, 46, 46, 46, 46, 46, 255, 95, 63]),
  /- input_string.cpp 201 -/ (.char, ⟨[], [.facet (.charset .char) (.charset .char ⟨.sbc 3, true⟩)], [.alignedJoin ⟨46, .right, 589824⟩ [.str .char32 [.unchecked none, .align (.fill 126), .align (.left 131072)] [729, 95, 43690]]], false⟩, [46, 46, 46, 46, 46, 46, 255, 95, 63]),
  /- input_string.cpp 215 -/ (.char, ⟨[], [.facet (.charset .char) (.charset .char ⟨.sbc 3, true⟩)], [.str .char32 [.unchecked none, .p 196608] [729, 95, 43690, 95, 95, 95]], false⟩, [255, 95, 63]),
  /- input_string.cpp 216 -/ (.char, ⟨[], [.facet (.charset .char) (.charset .char ⟨.sbc 3, true⟩)], [.str .char32 [.unchecked none, .p 196608, .align (.right 393216)] [729, 95, 43690, 95, 95, 95]], false⟩, [32, 32, 32, 255, 95, 63]),
  /- input_string.cpp 217 -/ (.char, ⟨[], [.facet (.charset .char) (.charset .char ⟨.sbc 3, true⟩)], [.str .char32 [.unchecked none, .p 196608, .align (.fill 46), .align (.left 393216)] [729, 95, 43690, 95, 95, 95]], false⟩, [255, 95, 63, 46, 46, 46]),
  /- input_string.cpp 218 -/ (.char, ⟨[], [.facet (.charset .char) (.charset .char ⟨.sbc 3, true⟩)], [.str .char32 [.unchecked none, .p 196608, .align (.fill 46), .align (.right 393216)] [729, 95, 43690, 95, 95, 95]], false⟩, [46, 46, 46, 255, 95, 63]),
  /- input_string.cpp 219 -/ (.char, ⟨[], [.facet (.charset .char) (.charset .char ⟨.sbc 3, true⟩)], [.str .char32 [.unchecked none, .p 196608, .align (.fill 46), .align (.center 393216)] [729, 95, 43690, 95, 95, 95]], false⟩, [46, 255, 95, 63, 46, 46]),
  /- input_string.cpp 221 -/ (.char, ⟨[], [.facet (.charset .char) (.charset .char ⟨.sbc 3, true⟩)], [.alignedJoin ⟨32, .right, 393216⟩ [.str .char32 [.unchecked none, .p 196608] [729, 95, 43690, 95, 95, 95]]], false⟩, [32, 32, 32, 255, 95, 63]),
  /- input_string.cpp 222 -/ (.char, ⟨[], [.facet (.charset .char) (.charset .char ⟨.sbc 3, true⟩)], [.alignedJoin ⟨46, .right, 589824⟩ [.str .char32 [.unchecked none, .p 196608, .align (.fill 126), .align (.left 393216)] [729, 95, 43690, 95, 95, 95]]], false⟩, [46, 46, 46, 255, 95, 63, 126, 126, 126]),
  /- input_string.cpp 223 -/ (.char, ⟨[], [.facet (.charset .char) (.charset .char ⟨.sbc 3, true⟩)], [.alignedJoin ⟨46, .right, 589824⟩ [.str .char32 [.unchecked none, .p 196608, .align (.fill 126), .align (.left 196608)] [729, 95, 43690, 95, 95, 95]]], false⟩, [46, 46, 46, 46, 46, 46, 255, 95, 63]),
  /- input_string.cpp 224 -/ (.char, ⟨[], [.facet (.charset .char) (.charset .char ⟨.sbc 3, true⟩)], [.alignedJoin ⟨46, .right, 589824⟩ [.str .char32 [.unchecked none, .p 196608, .align (.fill 126), .align (.left 131072)] [729, 95, 43690, 95, 95, 95]]], false⟩, [46, 46, 46, 46, 46, 46, 255, 95, 63]),
  /- input_string.cpp 243 -/ (.char, ⟨[], [.facet (.charset .char) (.charset .char ⟨.sbc 18, true⟩)], [.str .char [.transcode (some ⟨.sbc 7, true⟩)] [164, 95, 195, 95, 210]], false⟩, [128, 95, 63, 95, 63]),
  /- input_string.cpp 244 -/ (.char, ⟨[], [.facet (.charset .char) (.charset .char ⟨.sbc 18, true⟩)], [.str .char [.transcode (some ⟨.sbc 7, true⟩), .align (.right 524288)] [164, 95, 195, 95, 210]], false⟩, [32, 32, 32, 128, 95, 63, 95, 63]),
  /- input_string.cpp 245 -/ (.char, ⟨[], [.facet (.charset .char) (.charset .char ⟨.sbc 18, true⟩)], [.str .char [.transcode (some ⟨.sbc 7, true⟩), .align (.fill 46), .align (.left 524288)] [164, 95, 195, 95, 210]], false⟩, [128, 95, 63, 95, 63, 46, 46, 46]),
  /- input_string.cpp 246 -/ (.char, ⟨[], [.facet (.charset .char) (.charset .char ⟨.sbc 18, true⟩)], [.str .char [.transcode (some ⟨.sbc 7, true⟩), .align (.fill 46), .align (.right 524288)] [164, 95, 195, 95, 210]], false⟩, [46, 46, 46, 128, 95, 63, 95, 63]),
  /- input_string.cpp 247 -/ (.char, ⟨[], [.facet (.charset .char) (.charset .char ⟨.sbc 18, true⟩)], [.str .char [.transcode (some ⟨.sbc 7, true⟩), .align (.fill 46), .align (.center 524288)] [164, 95, 195, 95, 210]], false⟩, [46, 128, 95, 63, 95, 63, 46, 46]),
  /- input_string.cpp 249 -/ (.char, ⟨[], [.facet (.charset .char) (.charset .char ⟨.sbc 18, true⟩)], [.alignedJoin ⟨32, .right, 524288⟩ [.str .char [.transcode (some ⟨.sbc 7, true⟩)] [164, 95, 195, 95, 210]]], false⟩, [32, 32, 32, 128, 95, 63, 95, 63]),
  /- input_string.cpp 250 -/ (.char, ⟨[], [.facet (.charset .char) (.charset .char ⟨.sbc 18, true⟩)], [.alignedJoin ⟨46, .right, 720896⟩ [.str .char [.transcode (some ⟨.sbc 7, true⟩), .align (.fill 126), .align (.left 524288)] [164, 95, 195, 95, 210]]], false⟩, [46, 46, 46, 128, 95, 63, 95, 63, 126, 126, 126]),
  /- input_string.cpp 251 -/ (.char, ⟨[], [.facet (.charset .char) (.charset .char ⟨.sbc 18, true⟩)], [.alignedJoin ⟨46, .right, 720896⟩ [.str .char [.transcode (some ⟨.sbc 7, true⟩), .align (.fill 126), .align (.left 327680)] [164, 95, 195, 95, 210]]], false⟩, [46, 46, 46, 46, 46, 46, 128, 95, 63, 95, 63]),
  /- input_string.cpp 252 -/ (.char, ⟨[], [.facet (.charset .char) (.charset .char ⟨.sbc 18, true⟩)], [.alignedJoin ⟨46, .right, 720896⟩ [.str .char [.transcode (some ⟨.sbc 7, true⟩), .align (.fill 126), .align (.left 262144)] [164, 95, 195, 95, 210]]], false⟩, [46, 46, 46, 46, 46, 46, 128, 95, 63, 95, 63]),
  /- input_string.cpp 262 -/ (.char, ⟨[], [.facet (.charset .char) (.charset .char ⟨.sbc 18, true⟩)], [.str .char [.transcode (some ⟨.sbc 7, true⟩), .p 327680] [164, 95, 195, 95, 210, 95, 95, 95]], false⟩, [128, 95, 63, 95, 63]),
  /- input_string.cpp 263 -/ (.char, ⟨[], [.facet (.charset .char) (.charset .char ⟨.sbc 18, true⟩)], [.str .char [.transcode (some ⟨.sbc 7, true⟩), .p 327680, .align (.right 524288)] [164, 95, 195, 95, 210, 95, 95, 95]], false⟩, [32, 32, 32, 128, 95, 63, 95, 63]),
  /- input_string.cpp 264 -/ (.char, ⟨[], [.facet (.charset .char) (.charset .char ⟨.sbc 18, true⟩)], [.str .char [.transcode (some ⟨.sbc 7, true⟩), .p 327680, .align (.fill 46), .align (.left 524288)] [164, 95, 195, 95, 210, 95, 95, 95]], false⟩, [128, 95, 63, 95, 63, 46, 46, 46]),
  /- input_string.cpp 265 -/ (.char, ⟨[], [.facet (.charset .char) (.charset .char ⟨.sbc 18, true⟩)], [.str .char [.transcode (some ⟨.sbc 7, true⟩), .p 327680, .align (.fill 46), .align (.right 524288)] [164, 95, 195, 95, 210, 95, 95, 95]], false⟩, [46, 46, 46, 128, 95, 63, 95, 63]),
  /- input_string.cpp 266 -/ (.char, ⟨[], [.facet (.charset .char) (.charset .char ⟨.sbc 18, true⟩)], [.str .char [.transcode (some ⟨.sbc 7, true⟩), .p 327680, .align (.fill 46), .align (.center 524288)] [164, 95, 195, 95, 210, 95, 95, 95]], false⟩, [46, 128, 95, 63, 95, 63, 46, 46]),
  /- input_string.cpp 268 -/ (.char, ⟨[], [.facet (.charset .char) (.charset .char ⟨.sbc 18, true⟩)], [.alignedJoin ⟨32, .right, 524288⟩ [.str .char [.transcode (some ⟨.sbc 7, true⟩), .p 327680] [164, 95, 195, 95, 210, 95, 95, 95]]], false⟩, [32, 32, 32, 128, 95, 63, 95, 63]),
  /- input_string.cpp 269 -/ (.char, ⟨[], [.facet (.charset .char) (.charset .char ⟨.sbc 18, true⟩)], [.alignedJoin ⟨46, .right, 720896⟩ [.str .char [.transcode (some ⟨.sbc 7, true⟩), .p 327680, .align (.fill 126), .align (.left 524288)] [164, 95, 195, 95, 210, 95, 95, 95]]], false⟩, [46, 46, 46, 128, 95, 63, 95, 63, 126, 126, 126]),
  /- input_string.cpp 270 -/ (.char, ⟨[], [.facet (.charset .char) (.charset .char ⟨.sbc 18, true⟩)], [.alignedJoin ⟨46, .right, 720896⟩ [.str .char [.transcode (some ⟨.sbc 7, true⟩), .p 327680, .align (.fill 126), .align (.left 327680)] [164, 95, 195, 95, 210, 95, 95, 95]]], false⟩, [46, 46, 46, 46, 46, 46, 128, 95, 63, 95, 63])] = true := by decide +kernel

set_option maxRecDepth 100000 in
example : allPrint [
  /- input_string.cpp 271 -/ (.char, ⟨[], [.facet (.charset .char) (.charset .char ⟨.sbc 18, true⟩)], [.alignedJoin ⟨46, .right, 720896⟩ [.str .char [.transcode (some ⟨.sbc 7, true⟩), .p 327680, .align (.fill 126), .align (.left 262144)] [164, 95, 195, 95, 210, 95, 95, 95]]], false⟩, [46, 46, 46, 46, 46, 46, 128, 95, 63, 95, 63]),
  /- input_string.cpp 289 -/ (.char, ⟨[], [.facet (.charset .char) (.charset .char ⟨.sbc 18, true⟩)], [.str .char [.unchecked (some ⟨.sbc 7, true⟩)] [164, 95, 195]], false⟩, [128, 95, 63]),
  /- input_string.cpp 290 -/ (.char, ⟨[], [.facet (.charset .char) (.charset .char ⟨.sbc 18, true⟩)], [.str .char [.unchecked (some ⟨.sbc 7, true⟩), .align (.right 393216)] [164, 95, 195]], false⟩, [32, 32, 32, 128, 95, 63]),
  /- input_string.cpp 291 -/ (.char, ⟨[], [.facet (.charset .char) (.charset .char ⟨.sbc 18, true⟩)], [.str .char [.unchecked (some ⟨.sbc 7, true⟩), .align (.fill 46), .align (.left 393216)] [164, 95, 195]], false⟩, [128, 95, 63, 46, 46, 46]),
  /- input_string.cpp 292 -/ (.char, ⟨[], [.facet (.charset .char) (.charset .char ⟨.sbc 18, true⟩)], [.str .char [.unchecked (some ⟨.sbc 7, true⟩), .align (.fill 46), .align (.right 393216)] [164, 95, 195]], false⟩, [46, 46, 46, 128, 95, 63]),
  /- input_string.cpp 293 -/ (.char, ⟨[], [.facet (.charset .char) (.charset .char ⟨.sbc 18, true⟩)], [.str .char [.unchecked (some ⟨.sbc 7, true⟩), .align (.fill 46), .align (.center 393216)] [164, 95, 195]], false⟩, [46, 128, 95, 63, 46, 46]),
  /- input_string.cpp 295 -/ (.char, ⟨[], [.facet (.charset .char) (.charset .char ⟨.sbc 18, true⟩)], [.alignedJoin ⟨32, .right, 393216⟩ [.str .char [.unchecked (some ⟨.sbc 7, true⟩)] [164, 95, 195]]], false⟩, [32, 32, 32, 128, 95, 63]),
  /- input_string.cpp 296 -/ (.char, ⟨[], [.facet (.charset .char) (.charset .char ⟨.sbc 18, true⟩)], [.alignedJoin ⟨46, .right, 589824⟩ [.str .char [.unchecked (some ⟨.sbc 7, true⟩), .align (.fill 126), .align (.left 393216)] [164, 95, 195]]], false⟩, [46, 46, 46, 128, 95, 63, 126, 126, 126]),
  /- input_string.cpp 297 -/ (.char, ⟨[], [.facet (.charset .char) (.charset .char ⟨.sbc 18, true⟩)], [.alignedJoin ⟨46, .right, 589824⟩ [.str .char [.unchecked (some ⟨.sbc 7, true⟩), .align (.fill 126), .align (.left 196608)] [164, 95, 195]]], false⟩, [46, 46, 46, 46, 46, 46, 128, 95, 63]),
  /- input_string.cpp 298 -/ (.char, ⟨[], [.facet (.charset .char) (.charset .char ⟨.sbc 18, true⟩)], [.alignedJoin ⟨46, .right, 589824⟩ [.str .char [.unchecked (some ⟨.sbc 7, true⟩), .align (.fill 126), .align (.left 131072)] [164, 95, 195]]], false⟩, [46, 46, 46, 46, 46, 46, 128, 95, 63]),
  /- input_string.cpp 308 -/ (.char, ⟨[], [.facet (.charset .char) (.charset .char ⟨.sbc 18, true⟩)], [.str .char [.unchecked (some ⟨.sbc 7, true⟩), .p 196608] [164, 95, 195]], false⟩, [128, 95, 63]),
  /- input_string.cpp 309 -/ (.char, ⟨[], [.facet (.charset .char) (.charset .char ⟨.sbc 18, true⟩)], [.str .char [.unchecked (some ⟨.sbc 7, true⟩), .p 196608, .align (.right 393216)] [164, 95, 195]], false⟩, [32, 32, 32, 128, 95, 63]),
  /- input_string.cpp 310 -/ (.char, ⟨[], [.facet (.charset .char) (.charset .char ⟨.sbc 18, true⟩)], [.str .char [.unchecked (some ⟨.sbc 7, true⟩), .p 196608, .align (.fill 46), .align (.left 393216)] [164, 95, 195]], false⟩, [128, 95, 63, 46, 46, 46]),
  /- input_string.cpp 311 -/ (.char, ⟨[], [.facet (.charset .char) (.charset .char ⟨.sbc 18, true⟩)], [.str .char [.unchecked (some ⟨.sbc 7, true⟩), .p 196608, .align (.fill 46), .align (.right 393216)] [164, 95, 195]], false⟩, [46, 46, 46, 128, 95, 63]),
  /- input_string.cpp 312 -/ (.char, ⟨[], [.facet (.charset .char) (.charset .char ⟨.sbc 18, true⟩)], [.str .char [.unchecked (some ⟨.sbc 7, true⟩), .p 196608, .align (.fill 46), .align (.center 393216)] [164, 95, 195]], false⟩, [46, 128, 95, 63, 46, 46]),
  /- input_string.cpp 314 -/ (.char, ⟨[], [.facet (.charset .char) (.charset .char ⟨.sbc 18, true⟩)], [.alignedJoin ⟨32, .right, 393216⟩ [.str .char [.unchecked (some ⟨.sbc 7, true⟩), .p 196608] [164, 95, 195]]], false⟩, [32, 32, 32, 128, 95, 63]),
  /- input_string.cpp 315 -/ (.char, ⟨[], [.facet (.charset .char) (.charset .char ⟨.sbc 18, true⟩)], [.alignedJoin ⟨46, .right, 589824⟩ [.str .char [.unchecked (some ⟨.sbc 7, true⟩), .p 196608, .align (.fill 126), .align (.left 393216)] [164, 95, 195]]], false⟩, [46, 46, 46, 128, 95, 63, 126, 126, 126]),
  /- input_string.cpp 316 -/ (.char, ⟨[], [.facet (.charset .char) (.charset .char ⟨.sbc 18, true⟩)], [.alignedJoin ⟨46, .right, 589824⟩ [.str .char [.unchecked (some ⟨.sbc 7, true⟩), .p 196608, .align (.fill 126), .align (.left 196608)] [164, 95, 195]]], false⟩, [46, 46, 46, 46, 46, 46, 128, 95, 63]),
  /- input_string.cpp 317 -/ (.char, ⟨[], [.facet (.charset .char) (.charset .char ⟨.sbc 18, true⟩)], [.alignedJoin ⟨46, .right, 589824⟩ [.str .char [.unchecked (some ⟨.sbc 7, true⟩), .p 196608, .align (.fill 126), .align (.left 131072)] [164, 95, 195]]], false⟩, [46, 46, 46, 46, 46, 46, 128, 95, 63]),
  /- input_string.cpp 332 -/ (.char, ⟨[], [.facet (.charset .char) (.charset .char ⟨.sbc 7, true⟩)], [.str .char [.transcode (some ⟨.sbc 7, true⟩)] [210]], false⟩, [210]),
  /- input_string.cpp 333 -/ (.char, ⟨[], [.facet (.charset .char) (.charset .char ⟨.sbc 7, true⟩)], [.str .char [.transcode (some ⟨.sbc 7, true⟩), .align (.right 262144)] [210]], false⟩, [32, 32, 32, 210]),
  /- input_string.cpp 334 -/ (.char, ⟨[], [.facet (.charset .char) (.charset .char ⟨.sbc 7, true⟩)], [.str .char [.transcode (some ⟨.sbc 7, true⟩), .align (.fill 46), .align (.left 262144)] [210]], false⟩, [210, 46, 46, 46]),
  /- input_string.cpp 335 -/ (.char, ⟨[], [.facet (.charset .char) (.charset .char ⟨.sbc 7, true⟩)], [.str .char [.transcode (some ⟨.sbc 7, true⟩), .align (.fill 46), .align (.right 262144)] [210]], false⟩, [46, 46, 46, 210]),
  /- input_string.cpp 336 -/ (.char, ⟨[], [.facet (.charset .char) (.charset .char ⟨.sbc 7, true⟩)], [.str .char [.transcode (some ⟨.sbc 7, true⟩), .align (.fill 46), .align (.center 262144)] [210]], false⟩, [46, 210, 46, 46]),
  /- input_string.cpp 338 -/ (.char, ⟨[], [.facet (.charset .char) (.charset .char ⟨.sbc 7, true⟩)], [.alignedJoin ⟨32, .right, 262144⟩ [.str .char [.transcode (some ⟨.sbc 7, true⟩)] [210]]], false⟩, [32, 32, 32, 210]),
  /- input_string.cpp 339 -/ (.char, ⟨[], [.facet (.charset .char) (.charset .char ⟨.sbc 7, true⟩)], [.alignedJoin ⟨46, .right, 458752⟩ [.str .char [.transcode (some ⟨.sbc 7, true⟩), .align (.fill 126), .align (.left 262144)] [210]]], false⟩, [46, 46, 46, 210, 126, 126, 126]),
  /- input_string.cpp 340 -/ (.char, ⟨[], [.facet (.charset .char) (.charset .char ⟨.sbc 7, true⟩)], [.alignedJoin ⟨46, .right, 458752⟩ [.str .char [.transcode (some ⟨.sbc 7, true⟩), .align (.fill 126), .align (.left 65536)] [210]]], false⟩, [46, 46, 46, 46, 46, 46, 210]),
  /- input_string.cpp 350 -/ (.char, ⟨[], [.facet (.charset .char) (.charset .char ⟨.sbc 7, true⟩)], [.str .char [.transcode (some ⟨.sbc 7, true⟩), .p 65536] [210, 95, 95, 95]], false⟩, [210]),
  /- input_string.cpp 351 -/ (.char, ⟨[], [.facet (.charset .char) (.charset .char ⟨.sbc 7, true⟩)], [.str .char [.transcode (some ⟨.sbc 7, true⟩), .p 65536, .align (.right 262144)] [210, 95, 95, 95]], false⟩, [32, 32, 32, 210]),
  /- input_string.cpp 352 -/ (.char, ⟨[], [.facet (.charset .char) (.charset .char ⟨.sbc 7, true⟩)], [.str .char [.transcode (some ⟨.sbc 7, true⟩), .p 65536, .align (.fill 46), .align (.left 262144)] [210, 95, 95, 95]], false⟩, [210, 46, 46, 46]),
  /- input_string.cpp 353 -/ (.char, ⟨[], [.facet (.charset .char) (.charset .char ⟨.sbc 7, true⟩)], [.str .char [.transcode (some ⟨.sbc 7, true⟩), .p 65536, .align (.fill 46), .align (.right 262144)] [210, 95, 95, 95]], false⟩, [46, 46, 46, 210]),
  /- input_string.cpp 354 -/ (.char, ⟨[], [.facet (.charset .char) (.charset .char ⟨.sbc 7, true⟩)], [.str .char [.transcode (some ⟨.sbc 7, true⟩), .p 65536, .align (.fill 46), .align (.center 262144)] [210, 95, 95, 95]], false⟩, [46, 210, 46, 46]),
  /- input_string.cpp 356 -/ (.char, ⟨[], [.facet (.charset .char) (.charset .char ⟨.sbc 7, true⟩)], [.alignedJoin ⟨32, .right, 262144⟩ [.str .char [.transcode (some ⟨.sbc 7, true⟩), .p 65536] [210, 95, 95, 95]]], false⟩, [32, 32, 32, 210]),
  /- input_string.cpp 357 -/ (.char, ⟨[], [.facet (.charset .char) (.charset .char ⟨.sbc 7, true⟩)], [.alignedJoin ⟨46, .right, 458752⟩ [.str .char [.transcode (some ⟨.sbc 7, true⟩), .p 65536, .align (.fill 126), .align (.left 262144)] [210, 95, 95, 95]]], false⟩, [46, 46, 46, 210, 126, 126, 126]),
  /- input_string.cpp 358 -/ (.char, ⟨[], [.facet (.charset .char) (.charset .char ⟨.sbc 7, true⟩)], [.alignedJoin ⟨46, .right, 458752⟩ [.str .char [.transcode (some ⟨.sbc 7, true⟩), .p 65536, .align (.fill 126), .align (.left 65536)] [210, 95, 95, 95]]], false⟩, [46, 46, 46, 46, 46, 46, 210]),
  /- input_string.cpp 381 -/ (.char16, ⟨[], [.facet (.charset .char16) (.charset .char16 ⟨.utf .utf16, false⟩)], [.str .char [.transcode (some ⟨.utf .utf8, false⟩)] [191, 95, 240, 159, 145, 136]], false⟩, [65533, 95, 55357, 56392]),
  /- input_string.cpp 382 -/ (.char16, ⟨[], [.facet (.charset .char16) (.charset .char16 ⟨.utf .utf16, false⟩)], [.str .char [.transcode (some ⟨.utf .utf8, false⟩), .align (.right 458752)] [191, 95, 240, 159, 145, 136]], false⟩, [32, 32, 32, 65533, 95, 55357, 56392]),
  /- input_string.cpp 383 -/ (.char16, ⟨[], [.facet (.charset .char16) (.charset .char16 ⟨.utf .utf16, false⟩)], [.str .char [.transcode (some ⟨.utf .utf8, false⟩), .align (.fill 46), .align (.left 458752)] [191, 95, 240, 159, 145, 136]], false⟩, [65533, 95, 55357, 56392, 46, 46, 46]),
  /- input_string.cpp 384 -/ (.char16, ⟨[], [.facet (.charset .char16) (.charset .char16 ⟨.utf .utf16, false⟩)], [.str .char [.transcode (some ⟨.utf .utf8, false⟩), .align (.fill 46), .align (.right 458752)] [191, 95, 240, 159, 145, 136]], false⟩, [46, 46, 46, 65533, 95, 55357, 56392]),
  /- input_string.cpp 385 -/ (.char16, ⟨[], [.facet (.charset .char16) (.charset .char16 ⟨.utf .utf16, false⟩)], [.str .char [.transcode (some ⟨.utf .utf8, false⟩), .align (.fill 46), .align (.center 458752)] [191, 95, 240, 159, 145, 136]], false⟩, [46, 65533, 95, 55357, 56392, 46, 46])] = true := by decide +kernel

set_option maxRecDepth 100000 in
example : allPrint [
  /- input_string.cpp 387 -/ (.char16, ⟨[], [.facet (.charset .char16) (.charset .char16 ⟨.utf .utf16, false⟩)], [.alignedJoin ⟨32, .right, 458752⟩ [.str .char [.transcode (some ⟨.utf .utf8, false⟩)] [191, 95, 240, 159, 145, 136]]], false⟩, [32, 32, 32, 65533, 95, 55357, 56392]),
  /- input_string.cpp 388 -/ (.char16, ⟨[], [.facet (.charset .char16) (.charset .char16 ⟨.utf .utf16, false⟩)], [.alignedJoin ⟨46, .right, 655360⟩ [.str .char [.transcode (some ⟨.utf .utf8, false⟩), .align (.fill 126), .align (.left 458752)] [191, 95, 240, 159, 145, 136]]], false⟩, [46, 46, 46, 65533, 95, 55357, 56392, 126, 126, 126]),
  /- input_string.cpp 389 -/ (.char16, ⟨[], [.facet (.charset .char16) (.charset .char16 ⟨.utf .utf16, false⟩)], [.alignedJoin ⟨46, .right, 655360⟩ [.str .char [.transcode (some ⟨.utf .utf8, false⟩), .align (.fill 126), .align (.left 262144)] [191, 95, 240, 159, 145, 136]]], false⟩, [46, 46, 46, 46, 46, 46, 65533, 95, 55357, 56392]),
  /- input_string.cpp 390 -/ (.char16, ⟨[], [.facet (.charset .char16) (.charset .char16 ⟨.utf .utf16, false⟩)], [.alignedJoin ⟨46, .right, 655360⟩ [.str .char [.transcode (some ⟨.utf .utf8, false⟩), .align (.fill 126), .align (.left 196608)] [191, 95, 240, 159, 145, 136]]], false⟩, [46, 46, 46, 46, 46, 46, 65533, 95, 55357, 56392]),
  /- input_string.cpp 399 -/ (.char16, ⟨[], [.facet (.charset .char16) (.charset .char16 ⟨.utf .utf16, false⟩)], [.str .char [.transcode (some ⟨.utf .utf8, false⟩), .p 262144] [191, 95, 240, 159, 145, 136, 95, 95, 95]], false⟩, [65533, 95, 55357, 56392]),
  /- input_string.cpp 400 -/ (.char16, ⟨[], [.facet (.charset .char16) (.charset .char16 ⟨.utf .utf16, false⟩)], [.str .char [.transcode (some ⟨.utf .utf8, false⟩), .p 262144, .align (.right 458752)] [191, 95, 240, 159, 145, 136, 95, 95, 95]], false⟩, [32, 32, 32, 65533, 95, 55357, 56392]),
  /- input_string.cpp 401 -/ (.char16, ⟨[], [.facet (.charset .char16) (.charset .char16 ⟨.utf .utf16, false⟩)], [.str .char [.transcode (some ⟨.utf .utf8, false⟩), .p 262144, .align (.fill 46), .align (.left 458752)] [191, 95, 240, 159, 145, 136, 95, 95, 95]], false⟩, [65533, 95, 55357, 56392, 46, 46, 46]),
  /- input_string.cpp 402 -/ (.char16, ⟨[], [.facet (.charset .char16) (.charset .char16 ⟨.utf .utf16, false⟩)], [.str .char [.transcode (some ⟨.utf .utf8, false⟩), .p 262144, .align (.fill 46), .align (.right 458752)] [191, 95, 240, 159, 145, 136, 95, 95, 95]], false⟩, [46, 46, 46, 65533, 95, 55357, 56392]),
  /- input_string.cpp 403 -/ (.char16, ⟨[], [.facet (.charset .char16) (.charset .char16 ⟨.utf .utf16, false⟩)], [.str .char [.transcode (some ⟨.utf .utf8, false⟩), .p 262144, .align (.fill 46), .align (.center 458752)] [191, 95, 240, 159, 145, 136, 95, 95, 95]], false⟩, [46, 65533, 95, 55357, 56392, 46, 46]),
  /- input_string.cpp 405 -/ (.char16, ⟨[], [.facet (.charset .char16) (.charset .char16 ⟨.utf .utf16, false⟩)], [.alignedJoin ⟨32, .right, 458752⟩ [.str .char [.transcode (some ⟨.utf .utf8, false⟩), .p 262144] [191, 95, 240, 159, 145, 136, 95, 95, 95]]], false⟩, [32, 32, 32, 65533, 95, 55357, 56392]),
  /- input_string.cpp 406 -/ (.char16, ⟨[], [.facet (.charset .char16) (.charset .char16 ⟨.utf .utf16, false⟩)], [.alignedJoin ⟨46, .right, 655360⟩ [.str .char [.transcode (some ⟨.utf .utf8, false⟩), .p 262144, .align (.fill 126), .align (.left 458752)] [191, 95, 240, 159, 145, 136, 95, 95, 95]]], false⟩, [46, 46, 46, 65533, 95, 55357, 56392, 126, 126, 126]),
  /- input_string.cpp 407 -/ (.char16, ⟨[], [.facet (.charset .char16) (.charset .char16 ⟨.utf .utf16, false⟩)], [.alignedJoin ⟨46, .right, 655360⟩ [.str .char [.transcode (some ⟨.utf .utf8, false⟩), .p 262144, .align (.fill 126), .align (.left 262144)] [191, 95, 240, 159, 145, 136, 95, 95, 95]]], false⟩, [46, 46, 46, 46, 46, 46, 65533, 95, 55357, 56392]),
  /- input_string.cpp 408 -/ (.char16, ⟨[], [.facet (.charset .char16) (.charset .char16 ⟨.utf .utf16, false⟩)], [.alignedJoin ⟨46, .right, 655360⟩ [.str .char [.transcode (some ⟨.utf .utf8, false⟩), .p 262144, .align (.fill 126), .align (.left 196608)] [191, 95, 240, 159, 145, 136, 95, 95, 95]]], false⟩, [46, 46, 46, 46, 46, 46, 65533, 95, 55357, 56392]),
  /- input_string.cpp 429 -/ (.char, ⟨[], [.facet (.charset .char) (.charset .char ⟨.sbc 3, false⟩)], [.str (.wchar true) [.unchecked (some ⟨.utf .utf32, false⟩)] [729, 95, 43690]], false⟩, [255, 95, 63]),
  /- input_string.cpp 430 -/ (.char, ⟨[], [.facet (.charset .char) (.charset .char ⟨.sbc 3, false⟩)], [.str (.wchar true) [.unchecked (some ⟨.utf .utf32, false⟩), .align (.right 393216)] [729, 95, 43690]], false⟩, [32, 32, 32, 255, 95, 63]),
  /- input_string.cpp 431 -/ (.char, ⟨[], [.facet (.charset .char) (.charset .char ⟨.sbc 3, false⟩)], [.str (.wchar true) [.unchecked (some ⟨.utf .utf32, false⟩), .align (.fill 46), .align (.left 393216)] [729, 95, 43690]], false⟩, [255, 95, 63, 46, 46, 46]),
  /- input_string.cpp 432 -/ (.char, ⟨[], [.facet (.charset .char) (.charset .char ⟨.sbc 3, false⟩)], [.str (.wchar true) [.unchecked (some ⟨.utf .utf32, false⟩), .align (.fill 46), .align (.right 393216)] [729, 95, 43690]], false⟩, [46, 46, 46, 255, 95, 63]),
  /- input_string.cpp 433 -/ (.char, ⟨[], [.facet (.charset .char) (.charset .char ⟨.sbc 3, false⟩)], [.str (.wchar true) [.unchecked (some ⟨.utf .utf32, false⟩), .align (.fill 46), .align (.center 393216)] [729, 95, 43690]], false⟩, [46, 255, 95, 63, 46, 46]),
  /- input_string.cpp 435 -/ (.char, ⟨[], [.facet (.charset .char) (.charset .char ⟨.sbc 3, false⟩)], [.alignedJoin ⟨32, .right, 393216⟩ [.str (.wchar true) [.unchecked (some ⟨.utf .utf32, false⟩)] [729, 95, 43690]]], false⟩, [32, 32, 32, 255, 95, 63]),
  /- input_string.cpp 436 -/ (.char, ⟨[], [.facet (.charset .char) (.charset .char ⟨.sbc 3, false⟩)], [.alignedJoin ⟨46, .right, 589824⟩ [.str (.wchar true) [.unchecked (some ⟨.utf .utf32, false⟩), .align (.fill 126), .align (.left 393216)] [729, 95, 43690]]], false⟩, [46, 46, 46, 255, 95, 63, 126, 126, 126]),
  /- input_string.cpp 437 -/ (.char, ⟨[], [.facet (.charset .char) (.charset .char ⟨.sbc 3, false⟩)], [.alignedJoin ⟨46, .right, 589824⟩ [.str (.wchar true) [.unchecked (some ⟨.utf .utf32, false⟩), .align (.fill 126), .align (.left 196608)] [729, 95, 43690]]], false⟩, [46, 46, 46, 46, 46, 46, 255, 95, 63]),
  /- input_string.cpp 438 -/ (.char, ⟨[], [.facet (.charset .char) (.charset .char ⟨.sbc 3, false⟩)], [.alignedJoin ⟨46, .right, 589824⟩ [.str (.wchar true) [.unchecked (some ⟨.utf .utf32, false⟩), .align (.fill 126), .align (.left 131072)] [729, 95, 43690]]], false⟩, [46, 46, 46, 46, 46, 46, 255, 95, 63]),
  /- input_string.cpp 448 -/ (.char, ⟨[], [.facet (.charset .char) (.charset .char ⟨.sbc 3, false⟩)], [.str (.wchar true) [.unchecked (some ⟨.utf .utf32, false⟩), .p 196608] [729, 95, 43690, 95, 95, 95]], false⟩, [255, 95, 63]),
  /- input_string.cpp 449 -/ (.char, ⟨[], [.facet (.charset .char) (.charset .char ⟨.sbc 3, false⟩)], [.str (.wchar true) [.unchecked (some ⟨.utf .utf32, false⟩), .p 196608, .align (.right 393216)] [729, 95, 43690, 95, 95, 95]], false⟩, [32, 32, 32, 255, 95, 63]),
  /- input_string.cpp 450 -/ (.char, ⟨[], [.facet (.charset .char) (.charset .char ⟨.sbc 3, false⟩)], [.str (.wchar true) [.unchecked (some ⟨.utf .utf32, false⟩), .p 196608, .align (.fill 46), .align (.left 393216)] [729, 95, 43690, 95, 95, 95]], false⟩, [255, 95, 63, 46, 46, 46]),
  /- input_string.cpp 451 -/ (.char, ⟨[], [.facet (.charset .char) (.charset .char ⟨.sbc 3, false⟩)], [.str (.wchar true) [.unchecked (some ⟨.utf .utf32, false⟩), .p 196608, .align (.fill 46), .align (.right 393216)] [729, 95, 43690, 95, 95, 95]], false⟩, [46, 46, 46, 255, 95, 63]),
  /- input_string.cpp 452 -/ (.char, ⟨[], [.facet (.charset .char) (.charset .char ⟨.sbc 3, false⟩)], [.str (.wchar true) [.unchecked (some ⟨.utf .utf32, false⟩), .p 196608, .align (.fill 46), .align (.center 393216)] [729, 95, 43690, 95, 95, 95]], false⟩, [46, 255, 95, 63, 46, 46]),
  /- input_string.cpp 454 -/ (.char, ⟨[], [.facet (.charset .char) (.charset .char ⟨.sbc 3, false⟩)], [.alignedJoin ⟨32, .right, 393216⟩ [.str (.wchar true) [.unchecked (some ⟨.utf .utf32, false⟩), .p 196608] [729, 95, 43690, 95, 95, 95]]], false⟩, [32, 32, 32, 255, 95, 63]),
  /- input_string.cpp 455 -/ (.char, ⟨[], [.facet (.charset .char) (.charset .char ⟨.sbc 3, false⟩)], [.alignedJoin ⟨46, .right, 589824⟩ [.str (.wchar true) [.unchecked (some ⟨.utf .utf32, false⟩), .p 196608, .align (.fill 126), .align (.left 393216)] [729, 95, 43690, 95, 95, 95]]], false⟩, [46, 46, 46, 255, 95, 63, 126, 126, 126]),
  /- input_string.cpp 456 -/ (.char, ⟨[], [.facet (.charset .char) (.charset .char ⟨.sbc 3, false⟩)], [.alignedJoin ⟨46, .right, 589824⟩ [.str (.wchar true) [.unchecked (some ⟨.utf .utf32, false⟩), .p 196608, .align (.fill 126), .align (.left 196608)] [729, 95, 43690, 95, 95, 95]]], false⟩, [46, 46, 46, 46, 46, 46, 255, 95, 63]),
  /- input_string.cpp 457 -/ (.char, ⟨[], [.facet (.charset .char) (.charset .char ⟨.sbc 3, false⟩)], [.alignedJoin ⟨46, .right, 589824⟩ [.str (.wchar true) [.unchecked (some ⟨.utf .utf32, false⟩), .p 196608, .align (.fill 126), .align (.left 131072)] [729, 95, 43690, 95, 95, 95]]], false⟩, [46, 46, 46, 46, 46, 46, 255, 95, 63]),
  /- input_string.cpp 472 -/ (.char, ⟨[], [.facet (.charset .char) (.charset .char ⟨.sbc 7, false⟩)], [.str .char [.transcode (some ⟨.sbc 7, false⟩)] [210]], false⟩, [210]),
  /- input_string.cpp 473 -/ (.char, ⟨[], [.facet (.charset .char) (.charset .char ⟨.sbc 7, false⟩)], [.str .char [.transcode (some ⟨.sbc 7, false⟩), .align (.right 262144)] [210]], false⟩, [32, 32, 32, 210]),
  /- input_string.cpp 474 -/ (.char, ⟨[], [.facet (.charset .char) (.charset .char ⟨.sbc 7, false⟩)], [.str .char [.transcode (some ⟨.sbc 7, false⟩), .align (.fill 46), .align (.left 262144)] [210]], false⟩, [210, 46, 46, 46]),
  /- input_string.cpp 475 -/ (.char, ⟨[], [.facet (.charset .char) (.charset .char ⟨.sbc 7, false⟩)], [.str .char [.transcode (some ⟨.sbc 7, false⟩), .align (.fill 46), .align (.right 262144)] [210]], false⟩, [46, 46, 46, 210]),
  /- input_string.cpp 476 -/ (.char, ⟨[], [.facet (.charset .char) (.charset .char ⟨.sbc 7, false⟩)], [.str .char [.transcode (some ⟨.sbc 7, false⟩), .align (.fill 46), .align (.center 262144)] [210]], false⟩, [46, 210, 46, 46]),
  /- input_string.cpp 478 -/ (.char, ⟨[], [.facet (.charset .char) (.charset .char ⟨.sbc 7, false⟩)], [.alignedJoin ⟨32, .right, 262144⟩ [.str .char [.transcode (some ⟨.sbc 7, false⟩)] [210]]], false⟩, [32, 32, 32, 210]),
  /- input_string.cpp 479 -/ (.char, ⟨[], [.facet (.charset .char) (.charset .char ⟨.sbc 7, false⟩)], [.alignedJoin ⟨46, .right, 458752⟩ [.str .char [.transcode (some ⟨.sbc 7, false⟩), .align (.fill 126), .align (.left 262144)] [210]]], false⟩, [46, 46, 46, 210, 126, 126, 126]),
  /- input_string.cpp 480 -/ (.char, ⟨[], [.facet (.charset .char) (.charset .char ⟨.sbc 7, false⟩)], [.alignedJoin ⟨46, .right, 458752⟩ [.str .char [.transcode (some ⟨.sbc 7, false⟩), .align (.fill 126), .align (.left 65536)] [210]]], false⟩, [46, 46, 46, 46, 46, 46, 210]),
  /- input_string.cpp 490 -/ (.char, ⟨[], [.facet (.charset .char) (.charset .char ⟨.sbc 7, false⟩)], [.str .char [.transcode (some ⟨.sbc 7, false⟩), .p 65536] [210, 95, 95, 95]], false⟩, [210])] = true := by decide +kernel

set_option maxRecDepth 100000 in
example : allPrint [
  /- input_string.cpp 491 -/ (.char, ⟨[], [.facet (.charset .char) (.charset .char ⟨.sbc 7, false⟩)], [.str .char [.transcode (some ⟨.sbc 7, false⟩), .p 65536, .align (.right 262144)] [210, 95, 95, 95]], false⟩, [32, 32, 32, 210]),
  /- input_string.cpp 492 -/ (.char, ⟨[], [.facet (.charset .char) (.charset .char ⟨.sbc 7, false⟩)], [.str .char [.transcode (some ⟨.sbc 7, false⟩), .p 65536, .align (.fill 46), .align (.left 262144)] [210, 95, 95, 95]], false⟩, [210, 46, 46, 46]),
  /- input_string.cpp 493 -/ (.char, ⟨[], [.facet (.charset .char) (.charset .char ⟨.sbc 7, false⟩)], [.str .char [.transcode (some ⟨.sbc 7, false⟩), .p 65536, .align (.fill 46), .align (.right 262144)] [210, 95, 95, 95]], false⟩, [46, 46, 46, 210]),
  /- input_string.cpp 494 -/ (.char, ⟨[], [.facet (.charset .char) (.charset .char ⟨.sbc 7, false⟩)], [.str .char [.transcode (some ⟨.sbc 7, false⟩), .p 65536, .align (.fill 46), .align (.center 262144)] [210, 95, 95, 95]], false⟩, [46, 210, 46, 46]),
  /- input_string.cpp 496 -/ (.char, ⟨[], [.facet (.charset .char) (.charset .char ⟨.sbc 7, false⟩)], [.alignedJoin ⟨32, .right, 262144⟩ [.str .char [.transcode (some ⟨.sbc 7, false⟩), .p 65536] [210, 95, 95, 95]]], false⟩, [32, 32, 32, 210]),
  /- input_string.cpp 497 -/ (.char, ⟨[], [.facet (.charset .char) (.charset .char ⟨.sbc 7, false⟩)], [.alignedJoin ⟨46, .right, 458752⟩ [.str .char [.transcode (some ⟨.sbc 7, false⟩), .p 65536, .align (.fill 126), .align (.left 262144)] [210, 95, 95, 95]]], false⟩, [46, 46, 46, 210, 126, 126, 126]),
  /- input_string.cpp 498 -/ (.char, ⟨[], [.facet (.charset .char) (.charset .char ⟨.sbc 7, false⟩)], [.alignedJoin ⟨46, .right, 458752⟩ [.str .char [.transcode (some ⟨.sbc 7, false⟩), .p 65536, .align (.fill 126), .align (.left 65536)] [210, 95, 95, 95]]], false⟩, [46, 46, 46, 46, 46, 46, 210]),
  /- input_string.cpp 517 -/ (.char, ⟨[], [.facet (.charset .char) (.charset .char ⟨.sbc 18, false⟩)], [.str .char [.transcode (some ⟨.sbc 7, false⟩)] [164, 95, 195, 95, 210]], false⟩, [128, 95, 63, 95, 63]),
  /- input_string.cpp 518 -/ (.char, ⟨[], [.facet (.charset .char) (.charset .char ⟨.sbc 18, false⟩)], [.str .char [.transcode (some ⟨.sbc 7, false⟩), .align (.right 524288)] [164, 95, 195, 95, 210]], false⟩, [32, 32, 32, 128, 95, 63, 95, 63]),
  /- input_string.cpp 519 -/ (.char, ⟨[], [.facet (.charset .char) (.charset .char ⟨.sbc 18, false⟩)], [.str .char [.transcode (some ⟨.sbc 7, false⟩), .align (.fill 46), .align (.left 524288)] [164, 95, 195, 95, 210]], false⟩, [128, 95, 63, 95, 63, 46, 46, 46]),
  /- input_string.cpp 520 -/ (.char, ⟨[], [.facet (.charset .char) (.charset .char ⟨.sbc 18, false⟩)], [.str .char [.transcode (some ⟨.sbc 7, false⟩), .align (.fill 46), .align (.right 524288)] [164, 95, 195, 95, 210]], false⟩, [46, 46, 46, 128, 95, 63, 95, 63]),
  /- input_string.cpp 521 -/ (.char, ⟨[], [.facet (.charset .char) (.charset .char ⟨.sbc 18, false⟩)], [.str .char [.transcode (some ⟨.sbc 7, false⟩), .align (.fill 46), .align (.center 524288)] [164, 95, 195, 95, 210]], false⟩, [46, 128, 95, 63, 95, 63, 46, 46]),
  /- input_string.cpp 523 -/ (.char, ⟨[], [.facet (.charset .char) (.charset .char ⟨.sbc 18, false⟩)], [.alignedJoin ⟨32, .right, 524288⟩ [.str .char [.transcode (some ⟨.sbc 7, false⟩)] [164, 95, 195, 95, 210]]], false⟩, [32, 32, 32, 128, 95, 63, 95, 63]),
  /- input_string.cpp 524 -/ (.char, ⟨[], [.facet (.charset .char) (.charset .char ⟨.sbc 18, false⟩)], [.alignedJoin ⟨46, .right, 720896⟩ [.str .char [.transcode (some ⟨.sbc 7, false⟩), .align (.fill 126), .align (.left 524288)] [164, 95, 195, 95, 210]]], false⟩, [46, 46, 46, 128, 95, 63, 95, 63, 126, 126, 126]),
  /- input_string.cpp 525 -/ (.char, ⟨[], [.facet (.charset .char) (.charset .char ⟨.sbc 18, false⟩)], [.alignedJoin ⟨46, .right, 720896⟩ [.str .char [.transcode (some ⟨.sbc 7, false⟩), .align (.fill 126), .align (.left 327680)] [164, 95, 195, 95, 210]]], false⟩, [46, 46, 46, 46, 46, 46, 128, 95, 63, 95, 63]),
  /- input_string.cpp 526 -/ (.char, ⟨[], [.facet (.charset .char) (.charset .char ⟨.sbc 18, false⟩)], [.alignedJoin ⟨46, .right, 720896⟩ [.str .char [.transcode (some ⟨.sbc 7, false⟩), .align (.fill 126), .align (.left 262144)] [164, 95, 195, 95, 210]]], false⟩, [46, 46, 46, 46, 46, 46, 128, 95, 63, 95, 63]),
  /- input_string.cpp 536 -/ (.char, ⟨[], [.facet (.charset .char) (.charset .char ⟨.sbc 18, false⟩)], [.str .char [.transcode (some ⟨.sbc 7, false⟩), .p 327680] [164, 95, 195, 95, 210, 95, 95, 95]], false⟩, [128, 95, 63, 95, 63]),
  /- input_string.cpp 537 -/ (.char, ⟨[], [.facet (.charset .char) (.charset .char ⟨.sbc 18, false⟩)], [.str .char [.transcode (some ⟨.sbc 7, false⟩), .p 327680, .align (.right 524288)] [164, 95, 195, 95, 210, 95, 95, 95]], false⟩, [32, 32, 32, 128, 95, 63, 95, 63]),
  /- input_string.cpp 538 -/ (.char, ⟨[], [.facet (.charset .char) (.charset .char ⟨.sbc 18, false⟩)], [.str .char [.transcode (some ⟨.sbc 7, false⟩), .p 327680, .align (.fill 46), .align (.left 524288)] [164, 95, 195, 95, 210, 95, 95, 95]], false⟩, [128, 95, 63, 95, 63, 46, 46, 46]),
  /- input_string.cpp 539 -/ (.char, ⟨[], [.facet (.charset .char) (.charset .char ⟨.sbc 18, false⟩)], [.str .char [.transcode (some ⟨.sbc 7, false⟩), .p 327680, .align (.fill 46), .align (.right 524288)] [164, 95, 195, 95, 210, 95, 95, 95]], false⟩, [46, 46, 46, 128, 95, 63, 95, 63]),
  /- input_string.cpp 540 -/ (.char, ⟨[], [.facet (.charset .char) (.charset .char ⟨.sbc 18, false⟩)], [.str .char [.transcode (some ⟨.sbc 7, false⟩), .p 327680, .align (.fill 46), .align (.center 524288)] [164, 95, 195, 95, 210, 95, 95, 95]], false⟩, [46, 128, 95, 63, 95, 63, 46, 46]),
  /- input_string.cpp 542 -/ (.char, ⟨[], [.facet (.charset .char) (.charset .char ⟨.sbc 18, false⟩)], [.alignedJoin ⟨32, .right, 524288⟩ [.str .char [.transcode (some ⟨.sbc 7, false⟩), .p 327680] [164, 95, 195, 95, 210, 95, 95, 95]]], false⟩, [32, 32, 32, 128, 95, 63, 95, 63]),
  /- input_string.cpp 543 -/ (.char, ⟨[], [.facet (.charset .char) (.charset .char ⟨.sbc 18, false⟩)], [.alignedJoin ⟨46, .right, 720896⟩ [.str .char [.transcode (some ⟨.sbc 7, false⟩), .p 327680, .align (.fill 126), .align (.left 524288)] [164, 95, 195, 95, 210, 95, 95, 95]]], false⟩, [46, 46, 46, 128, 95, 63, 95, 63, 126, 126, 126]),
  /- input_string.cpp 544 -/ (.char, ⟨[], [.facet (.charset .char) (.charset .char ⟨.sbc 18, false⟩)], [.alignedJoin ⟨46, .right, 720896⟩ [.str .char [.transcode (some ⟨.sbc 7, false⟩), .p 327680, .align (.fill 126), .align (.left 327680)] [164, 95, 195, 95, 210, 95, 95, 95]]], false⟩, [46, 46, 46, 46, 46, 46, 128, 95, 63, 95, 63]),
  /- input_string.cpp 545 -/ (.char, ⟨[], [.facet (.charset .char) (.charset .char ⟨.sbc 18, false⟩)], [.alignedJoin ⟨46, .right, 720896⟩ [.str .char [.transcode (some ⟨.sbc 7, false⟩), .p 327680, .align (.fill 126), .align (.left 262144)] [164, 95, 195, 95, 210, 95, 95, 95]]], false⟩, [46, 46, 46, 46, 46, 46, 128, 95, 63, 95, 63]),
  /- input_string.cpp 565 -/ (.char, ⟨[], [.facet (.charset .char) (.charset .char ⟨.sbc 18, false⟩)], [.str .char [.unchecked (some ⟨.sbc 7, false⟩)] [164, 95, 195]], false⟩, [128, 95, 63]),
  /- input_string.cpp 566 -/ (.char, ⟨[], [.facet (.charset .char) (.charset .char ⟨.sbc 18, false⟩)], [.str .char [.unchecked (some ⟨.sbc 7, false⟩), .align (.right 393216)] [164, 95, 195]], false⟩, [32, 32, 32, 128, 95, 63]),
  /- input_string.cpp 567 -/ (.char, ⟨[], [.facet (.charset .char) (.charset .char ⟨.sbc 18, false⟩)], [.str .char [.unchecked (some ⟨.sbc 7, false⟩), .align (.fill 46), .align (.left 393216)] [164, 95, 195]], false⟩, [128, 95, 63, 46, 46, 46]),
  /- input_string.cpp 568 -/ (.char, ⟨[], [.facet (.charset .char) (.charset .char ⟨.sbc 18, false⟩)], [.str .char [.unchecked (some ⟨.sbc 7, false⟩), .align (.fill 46), .align (.right 393216)] [164, 95, 195]], false⟩, [46, 46, 46, 128, 95, 63]),
  /- input_string.cpp 569 -/ (.char, ⟨[], [.facet (.charset .char) (.charset .char ⟨.sbc 18, false⟩)], [.str .char [.unchecked (some ⟨.sbc 7, false⟩), .align (.fill 46), .align (.center 393216)] [164, 95, 195]], false⟩, [46, 128, 95, 63, 46, 46]),
  /- input_string.cpp 571 -/ (.char, ⟨[], [.facet (.charset .char) (.charset .char ⟨.sbc 18, false⟩)], [.alignedJoin ⟨32, .right, 393216⟩ [.str .char [.unchecked (some ⟨.sbc 7, false⟩)] [164, 95, 195]]], false⟩, [32, 32, 32, 128, 95, 63]),
  /- input_string.cpp 572 -/ (.char, ⟨[], [.facet (.charset .char) (.charset .char ⟨.sbc 18, false⟩)], [.alignedJoin ⟨46, .right, 589824⟩ [.str .char [.unchecked (some ⟨.sbc 7, false⟩), .align (.fill 126), .align (.left 393216)] [164, 95, 195]]], false⟩, [46, 46, 46, 128, 95, 63, 126, 126, 126]),
  /- input_string.cpp 573 -/ (.char, ⟨[], [.facet (.charset .char) (.charset .char ⟨.sbc 18, false⟩)], [.alignedJoin ⟨46, .right, 589824⟩ [.str .char [.unchecked (some ⟨.sbc 7, false⟩), .align (.fill 126), .align (.left 196608)] [164, 95, 195]]], false⟩, [46, 46, 46, 46, 46, 46, 128, 95, 63]),
  /- input_string.cpp 574 -/ (.char, ⟨[], [.facet (.charset .char) (.charset .char ⟨.sbc 18, false⟩)], [.alignedJoin ⟨46, .right, 589824⟩ [.str .char [.unchecked (some ⟨.sbc 7, false⟩), .align (.fill 126), .align (.left 131072)] [164, 95, 195]]], false⟩, [46, 46, 46, 46, 46, 46, 128, 95, 63]),
  /- input_string.cpp 584 -/ (.char, ⟨[], [.facet (.charset .char) (.charset .char ⟨.sbc 18, false⟩)], [.str .char [.unchecked (some ⟨.sbc 7, false⟩), .p 196608] [164, 95, 195, 95, 95, 95]], false⟩, [128, 95, 63]),
  /- input_string.cpp 585 -/ (.char, ⟨[], [.facet (.charset .char) (.charset .char ⟨.sbc 18, false⟩)], [.str .char [.unchecked (some ⟨.sbc 7, false⟩), .p 196608, .align (.right 393216)] [164, 95, 195, 95, 95, 95]], false⟩, [32, 32, 32, 128, 95, 63]),
  /- input_string.cpp 586 -/ (.char, ⟨[], [.facet (.charset .char) (.charset .char ⟨.sbc 18, false⟩)], [.str .char [.unchecked (some ⟨.sbc 7, false⟩), .p 196608, .align (.fill 46), .align (.left 393216)] [164, 95, 195, 95, 95, 95]], false⟩, [128, 95, 63, 46, 46, 46]),
  /- input_string.cpp 587 -/ (.char, ⟨[], [.facet (.charset .char) (.charset .char ⟨.sbc 18, false⟩)], [.str .char [.unchecked (some ⟨.sbc 7, false⟩), .p 196608, .align (.fill 46), .align (.right 393216)] [164, 95, 195, 95, 95, 95]], false⟩, [46, 46, 46, 128, 95, 63]),
  /- input_string.cpp 588 -/ (.char, ⟨[], [.facet (.charset .char) (.charset .char ⟨.sbc 18, false⟩)], [.str .char [.unchecked (some ⟨.sbc 7, false⟩), .p 196608, .align (.fill 46), .align (.center 393216)] [164, 95, 195, 95, 95, 95]], false⟩, [46, 128, 95, 63, 46, 46]),
  /- input_string.cpp 590 -/ (.char, ⟨[], [.facet (.charset .char) (.charset .char ⟨.sbc 18, false⟩)], [.alignedJoin ⟨32, .right, 393216⟩ [.str .char [.unchecked (some ⟨.sbc 7, false⟩), .p 196608] [164, 95, 195, 95, 95, 95]]], false⟩, [32, 32, 32, 128, 95, 63])] = true := by decide +kernel

set_option maxRecDepth 100000 in
example : allPrint [
  /- input_string.cpp 591 -/ (.char, ⟨[], [.facet (.charset .char) (.charset .char ⟨.sbc 18, false⟩)], [.alignedJoin ⟨46, .right, 589824⟩ [.str .char [.unchecked (some ⟨.sbc 7, false⟩), .p 196608, .align (.fill 126), .align (.left 393216)] [164, 95, 195, 95, 95, 95]]], false⟩, [46, 46, 46, 128, 95, 63, 126, 126, 126]),
  /- input_string.cpp 592 -/ (.char, ⟨[], [.facet (.charset .char) (.charset .char ⟨.sbc 18, false⟩)], [.alignedJoin ⟨46, .right, 589824⟩ [.str .char [.unchecked (some ⟨.sbc 7, false⟩), .p 196608, .align (.fill 126), .align (.left 196608)] [164, 95, 195, 95, 95, 95]]], false⟩, [46, 46, 46, 46, 46, 46, 128, 95, 63]),
  /- input_string.cpp 593 -/ (.char, ⟨[], [.facet (.charset .char) (.charset .char ⟨.sbc 18, false⟩)], [.alignedJoin ⟨46, .right, 589824⟩ [.str .char [.unchecked (some ⟨.sbc 7, false⟩), .p 196608, .align (.fill 126), .align (.left 131072)] [164, 95, 195, 95, 95, 95]]], false⟩, [46, 46, 46, 46, 46, 46, 128, 95, 63]),
  /- input_char.cpp 10 -/ (.char, ⟨[], [], [.rawChr .char 97], false⟩, [97]),
  /- input_char.cpp 11 -/ (.char, ⟨[], [], [.chr .char [] 97], false⟩, [97]),
  /- input_char.cpp 12 -/ (.char, ⟨[], [], [.chr .char [.multi 4] 97], false⟩, [97, 97, 97, 97]),
  /- input_char.cpp 13 -/ (.char, ⟨[], [], [.chr .char [.multi 2, .align (.right 262144)] 97], false⟩, [32, 32, 97, 97]),
  /- input_char.cpp 15 -/ (.char, ⟨[], [], [.chr .char [.align (.right 327680)] 97], false⟩, [32, 32, 32, 32, 97]),
  /- input_char.cpp 16 -/ (.char, ⟨[], [], [.chr .char [.align (.left 327680)] 97], false⟩, [97, 32, 32, 32, 32]),
  /- input_char.cpp 17 -/ (.char, ⟨[], [], [.chr .char [.multi 2, .align (.left 327680)] 97], false⟩, [97, 97, 32, 32, 32]),
  /- input_char.cpp 19 -/ (.char, ⟨[], [], [.chr .char [.align (.set 46 327680 .right)] 97], false⟩, [46, 46, 46, 46, 97]),
  /- input_char.cpp 20 -/ (.char, ⟨[], [], [.chr .char [.align (.set 46 327680 .left)] 97], false⟩, [97, 46, 46, 46, 46]),
  /- input_char.cpp 21 -/ (.char, ⟨[], [], [.chr .char [.align (.set 46 327680 .center)] 97], false⟩, [46, 46, 97, 46, 46]),
  /- input_char.cpp 23 -/ (.char, ⟨[], [], [.chr .char [.align (.set 46 327680 .right), .multi 2] 97], false⟩, [46, 46, 46, 97, 97]),
  /- input_char.cpp 24 -/ (.char, ⟨[], [], [.chr .char [.align (.set 46 327680 .left), .multi 2] 97], false⟩, [97, 97, 46, 46, 46]),
  /- input_char.cpp 25 -/ (.char, ⟨[], [], [.chr .char [.align (.set 46 327680 .center), .multi 2] 97], false⟩, [46, 97, 97, 46, 46]),
  /- input_char.cpp 27 -/ (.char, ⟨[], [], [.chr .char [.align (.set 46 327680 .right), .multi 0] 97], false⟩, [46, 46, 46, 46, 46]),
  /- input_char.cpp 28 -/ (.char, ⟨[], [], [.chr .char [.align (.set 46 327680 .left), .multi 0] 97], false⟩, [46, 46, 46, 46, 46]),
  /- input_char.cpp 29 -/ (.char, ⟨[], [], [.chr .char [.align (.set 46 327680 .center), .multi 0] 97], false⟩, [46, 46, 46, 46, 46]),
  /- input_char.cpp 31 -/ (.char, ⟨[], [], [.alignedJoin ⟨46, .left, 0⟩ [.rawChr .char 97]], false⟩, [97]),
  /- input_char.cpp 32 -/ (.char, ⟨[], [], [.alignedJoin ⟨46, .left, 0⟩ [.chr .char [] 97]], false⟩, [97]),
  /- input_char.cpp 33 -/ (.char, ⟨[], [], [.alignedJoin ⟨46, .left, 65536⟩ [.chr .char [.align (.right 262144)] 97]], false⟩, [32, 32, 32, 97]),
  /- input_char.cpp 34 -/ (.char, ⟨[], [], [.alignedJoin ⟨46, .left, 393216⟩ [.chr .char [.align (.right 262144)] 97]], false⟩, [32, 32, 32, 97, 46, 46]),
  /- input_char.cpp 36 -/ (.char, ⟨[], [], [.alignedJoin ⟨46, .left, 131072⟩ [.chr .char [.multi 2, .align (.right 262144)] 97]], false⟩, [32, 32, 97, 97]),
  /- input_char.cpp 37 -/ (.char, ⟨[], [], [.alignedJoin ⟨46, .left, 131072⟩ [.chr .char [.multi 2, .align (.right 262144)] 97]], false⟩, [32, 32, 97, 97]),
  /- input_char.cpp 38 -/ (.char, ⟨[], [], [.alignedJoin ⟨46, .left, 262144⟩ [.chr .char [.multi 2, .align (.right 262144)] 97]], false⟩, [32, 32, 97, 97]),
  /- input_char.cpp 39 -/ (.char, ⟨[], [], [.alignedJoin ⟨46, .left, 393216⟩ [.chr .char [.multi 2, .align (.right 262144)] 97]], false⟩, [32, 32, 97, 97, 46, 46]),
  /- input_char.cpp 41 -/ (.char, ⟨[], [], [.alignedJoin ⟨46, .left, 131072⟩ [.chr .char [.multi 4, .align (.right 131072)] 97]], false⟩, [97, 97, 97, 97]),
  /- input_char.cpp 42 -/ (.char, ⟨[], [], [.alignedJoin ⟨46, .left, 262144⟩ [.chr .char [.multi 4, .align (.right 131072)] 97]], false⟩, [97, 97, 97, 97]),
  /- input_char.cpp 43 -/ (.char, ⟨[], [], [.alignedJoin ⟨46, .left, 393216⟩ [.chr .char [.multi 4, .align (.right 131072)] 97]], false⟩, [97, 97, 97, 97, 46, 46]),
  /- input_char.cpp 45 -/ (.char, ⟨[], [], [.alignedJoin ⟨46, .left, 131072⟩ [.chr .char [.multi 4, .align (.right 262144)] 97]], false⟩, [97, 97, 97, 97]),
  /- input_char.cpp 46 -/ (.char, ⟨[], [], [.alignedJoin ⟨46, .left, 262144⟩ [.chr .char [.multi 4, .align (.right 262144)] 97]], false⟩, [97, 97, 97, 97]),
  /- input_char.cpp 47 -/ (.char, ⟨[], [], [.alignedJoin ⟨46, .left, 393216⟩ [.chr .char [.multi 4, .align (.right 262144)] 97]], false⟩, [97, 97, 97, 97, 46, 46]),
  /- input_char32.cpp 12 -/ (.char, ⟨[], [], [.rawChr .char32 55295], false⟩, [237, 159, 191]),
  /- input_char32.cpp 13 -/ (.char, ⟨[], [], [.rawChr .char32 57344], false⟩, [238, 128, 128]),
  /- input_char32.cpp 14 -/ (.char, ⟨[], [], [.rawChr .char32 65535], false⟩, [239, 191, 191]),
  /- input_char32.cpp 15 -/ (.char, ⟨[], [], [.rawChr .char32 65536], false⟩, [240, 144, 128, 128]),
  /- input_char32.cpp 16 -/ (.char, ⟨[], [], [.rawChr .char32 1114111], false⟩, [244, 143, 191, 191]),
  /- input_char32.cpp 18 -/ (.char16, ⟨[], [], [.rawChr .char32 55295], false⟩, [55295]),
  /- input_char32.cpp 19 -/ (.char16, ⟨[], [], [.rawChr .char32 57344], false⟩, [57344])] = true := by decide +kernel

set_option maxRecDepth 100000 in
example : allPrint [
  /- input_char32.cpp 20 -/ (.char16, ⟨[], [], [.rawChr .char32 65535], false⟩, [65535]),
  /- input_char32.cpp 21 -/ (.char16, ⟨[], [], [.rawChr .char32 65536], false⟩, [55296, 56320]),
  /- input_char32.cpp 22 -/ (.char16, ⟨[], [], [.rawChr .char32 1114111], false⟩, [56319, 57343]),
  /- input_char32.cpp 24 -/ ((.wchar true), ⟨[], [], [.rawChr .char32 55295], false⟩, [55295]),
  /- input_char32.cpp 25 -/ ((.wchar true), ⟨[], [], [.rawChr .char32 57344], false⟩, [57344]),
  /- input_char32.cpp 26 -/ ((.wchar true), ⟨[], [], [.rawChr .char32 65535], false⟩, [65535]),
  /- input_char32.cpp 27 -/ ((.wchar true), ⟨[], [], [.rawChr .char32 65536], false⟩, [65536]),
  /- input_char32.cpp 28 -/ ((.wchar true), ⟨[], [], [.rawChr .char32 1114111], false⟩, [1114111]),
  /- input_char32.cpp 30 -/ (.char32, ⟨[], [], [.rawChr .char32 55295], false⟩, [55295]),
  /- input_char32.cpp 31 -/ (.char32, ⟨[], [], [.rawChr .char32 57344], false⟩, [57344]),
  /- input_char32.cpp 32 -/ (.char32, ⟨[], [], [.rawChr .char32 65535], false⟩, [65535]),
  /- input_char32.cpp 33 -/ (.char32, ⟨[], [], [.rawChr .char32 65536], false⟩, [65536]),
  /- input_char32.cpp 34 -/ (.char32, ⟨[], [], [.rawChr .char32 1114111], false⟩, [1114111]),
  /- input_char32.cpp 36 -/ (.char, ⟨[], [], [.rawChr .char32 97], false⟩, [97]),
  /- input_char32.cpp 37 -/ (.char, ⟨[], [], [.chr .char32 [.multi 4] 97], false⟩, [97, 97, 97, 97]),
  /- input_char32.cpp 38 -/ (.char, ⟨[], [], [.chr .char32 [.multi 2, .align (.right 262144)] 97], false⟩, [32, 32, 97, 97]),
  /- input_char32.cpp 40 -/ (.char, ⟨[], [], [.chr .char32 [.align (.right 327680)] 97], false⟩, [32, 32, 32, 32, 97]),
  /- input_char32.cpp 41 -/ (.char, ⟨[], [], [.chr .char32 [.align (.left 327680)] 97], false⟩, [97, 32, 32, 32, 32]),
  /- input_char32.cpp 42 -/ (.char, ⟨[], [], [.chr .char32 [.multi 2, .align (.left 327680)] 97], false⟩, [97, 97, 32, 32, 32]),
  /- input_char32.cpp 44 -/ (.char, ⟨[], [], [.chr .char32 [.align (.set 46 327680 .right)] 97], false⟩, [46, 46, 46, 46, 97]),
  /- input_char32.cpp 45 -/ (.char, ⟨[], [], [.chr .char32 [.align (.set 46 327680 .left)] 97], false⟩, [97, 46, 46, 46, 46]),
  /- input_char32.cpp 46 -/ (.char, ⟨[], [], [.chr .char32 [.align (.set 46 327680 .center)] 97], false⟩, [46, 46, 97, 46, 46]),
  /- input_char32.cpp 48 -/ (.char, ⟨[], [], [.chr .char32 [.align (.set 46 327680 .right), .multi 2] 97], false⟩, [46, 46, 46, 97, 97]),
  /- input_char32.cpp 49 -/ (.char, ⟨[], [], [.chr .char32 [.align (.set 46 327680 .left), .multi 2] 97], false⟩, [97, 97, 46, 46, 46]),
  /- input_char32.cpp 50 -/ (.char, ⟨[], [], [.chr .char32 [.align (.set 46 327680 .center), .multi 2] 97], false⟩, [46, 97, 97, 46, 46]),
  /- input_char32.cpp 52 -/ (.char, ⟨[], [], [.chr .char32 [.align (.set 46 327680 .right), .multi 0] 97], false⟩, [46, 46, 46, 46, 46]),
  /- input_char32.cpp 53 -/ (.char, ⟨[], [], [.chr .char32 [.align (.set 46 327680 .left), .multi 0] 97], false⟩, [46, 46, 46, 46, 46]),
  /- input_char32.cpp 54 -/ (.char, ⟨[], [], [.chr .char32 [.align (.set 46 327680 .center), .multi 0] 97], false⟩, [46, 46, 46, 46, 46]),
  /- input_char32.cpp 56 -/ (.char, ⟨[], [], [.alignedJoin ⟨46, .left, 0⟩ [.rawChr .char32 97]], false⟩, [97]),
  /- input_char32.cpp 57 -/ (.char, ⟨[], [], [.alignedJoin ⟨46, .left, 65536⟩ [.chr .char32 [.align (.right 262144)] 97]], false⟩, [32, 32, 32, 97]),
  /- input_char32.cpp 58 -/ (.char, ⟨[], [], [.alignedJoin ⟨46, .left, 393216⟩ [.chr .char32 [.align (.right 262144)] 97]], false⟩, [32, 32, 32, 97, 46, 46]),
  /- input_char32.cpp 60 -/ (.char, ⟨[], [], [.alignedJoin ⟨46, .left, 131072⟩ [.chr .char32 [.multi 2, .align (.right 262144)] 97]], false⟩, [32, 32, 97, 97]),
  /- input_char32.cpp 61 -/ (.char, ⟨[], [], [.alignedJoin ⟨46, .left, 131072⟩ [.chr .char32 [.multi 2, .align (.right 262144)] 97]], false⟩, [32, 32, 97, 97]),
  /- input_char32.cpp 62 -/ (.char, ⟨[], [], [.alignedJoin ⟨46, .left, 262144⟩ [.chr .char32 [.multi 2, .align (.right 262144)] 97]], false⟩, [32, 32, 97, 97]),
  /- input_char32.cpp 63 -/ (.char, ⟨[], [], [.alignedJoin ⟨46, .left, 393216⟩ [.chr .char32 [.multi 2, .align (.right 262144)] 97]], false⟩, [32, 32, 97, 97, 46, 46]),
  /- input_char32.cpp 65 -/ (.char, ⟨[], [], [.alignedJoin ⟨46, .left, 131072⟩ [.chr .char32 [.multi 4, .align (.right 131072)] 97]], false⟩, [97, 97, 97, 97]),
  /- input_char32.cpp 66 -/ (.char, ⟨[], [], [.alignedJoin ⟨46, .left, 262144⟩ [.chr .char32 [.multi 4, .align (.right 131072)] 97]], false⟩, [97, 97, 97, 97]),
  /- input_char32.cpp 67 -/ (.char, ⟨[], [], [.alignedJoin ⟨46, .left, 393216⟩ [.chr .char32 [.multi 4, .align (.right 131072)] 97]], false⟩, [97, 97, 97, 97, 46, 46]),
  /- input_char32.cpp 69 -/ (.char, ⟨[], [], [.alignedJoin ⟨46, .left, 131072⟩ [.chr .char32 [.multi 4, .align (.right 262144)] 97]], false⟩, [97, 97, 97, 97]),
  /- input_char32.cpp 70 -/ (.char, ⟨[], [], [.alignedJoin ⟨46, .left, 262144⟩ [.chr .char32 [.multi 4, .align (.right 262144)] 97]], false⟩, [97, 97, 97, 97])] = true := by decide +kernel

set_option maxRecDepth 100000 in
example : allPrint [
  /- input_char32.cpp 71 -/ (.char, ⟨[], [], [.alignedJoin ⟨46, .left, 393216⟩ [.chr .char32 [.multi 4, .align (.right 262144)] 97]], false⟩, [97, 97, 97, 97, 46, 46]),
  /- input_bool.cpp 10 -/ (.char, ⟨[], [], [.bool none true], false⟩, [116, 114, 117, 101]),
  /- input_bool.cpp 11 -/ (.char16, ⟨[], [], [.bool none true], false⟩, [116, 114, 117, 101]),
  /- input_bool.cpp 12 -/ (.char32, ⟨[], [], [.bool none true], false⟩, [116, 114, 117, 101]),
  /- input_bool.cpp 13 -/ ((.wchar true), ⟨[], [], [.bool none true], false⟩, [116, 114, 117, 101]),
  /- input_bool.cpp 15 -/ (.char, ⟨[], [.facet .lettercase (.lettercase .mixed)], [.bool none true], false⟩, [84, 114, 117, 101]),
  /- input_bool.cpp 16 -/ (.char16, ⟨[], [.facet .lettercase (.lettercase .mixed)], [.bool none true], false⟩, [84, 114, 117, 101]),
  /- input_bool.cpp 17 -/ (.char32, ⟨[], [.facet .lettercase (.lettercase .mixed)], [.bool none true], false⟩, [84, 114, 117, 101]),
  /- input_bool.cpp 18 -/ ((.wchar true), ⟨[], [.facet .lettercase (.lettercase .mixed)], [.bool none true], false⟩, [84, 114, 117, 101]),
  /- input_bool.cpp 20 -/ (.char, ⟨[], [.facet .lettercase (.lettercase .upper)], [.bool none true], false⟩, [84, 82, 85, 69]),
  /- input_bool.cpp 21 -/ (.char16, ⟨[], [.facet .lettercase (.lettercase .upper)], [.bool none true], false⟩, [84, 82, 85, 69]),
  /- input_bool.cpp 22 -/ (.char32, ⟨[], [.facet .lettercase (.lettercase .upper)], [.bool none true], false⟩, [84, 82, 85, 69]),
  /- input_bool.cpp 23 -/ ((.wchar true), ⟨[], [.facet .lettercase (.lettercase .upper)], [.bool none true], false⟩, [84, 82, 85, 69]),
  /- input_bool.cpp 25 -/ (.char, ⟨[], [], [.bool none false], false⟩, [102, 97, 108, 115, 101]),
  /- input_bool.cpp 26 -/ (.char16, ⟨[], [], [.bool none false], false⟩, [102, 97, 108, 115, 101]),
  /- input_bool.cpp 27 -/ (.char32, ⟨[], [], [.bool none false], false⟩, [102, 97, 108, 115, 101]),
  /- input_bool.cpp 28 -/ ((.wchar true), ⟨[], [], [.bool none false], false⟩, [102, 97, 108, 115, 101]),
  /- input_bool.cpp 30 -/ (.char, ⟨[], [.facet .lettercase (.lettercase .mixed)], [.bool none false], false⟩, [70, 97, 108, 115, 101]),
  /- input_bool.cpp 31 -/ (.char16, ⟨[], [.facet .lettercase (.lettercase .mixed)], [.bool none false], false⟩, [70, 97, 108, 115, 101]),
  /- input_bool.cpp 32 -/ (.char32, ⟨[], [.facet .lettercase (.lettercase .mixed)], [.bool none false], false⟩, [70, 97, 108, 115, 101]),
  /- input_bool.cpp 33 -/ ((.wchar true), ⟨[], [.facet .lettercase (.lettercase .mixed)], [.bool none false], false⟩, [70, 97, 108, 115, 101]),
  /- input_bool.cpp 35 -/ (.char, ⟨[], [.facet .lettercase (.lettercase .upper)], [.bool none false], false⟩, [70, 65, 76, 83, 69]),
  /- input_bool.cpp 36 -/ (.char16, ⟨[], [.facet .lettercase (.lettercase .upper)], [.bool none false], false⟩, [70, 65, 76, 83, 69]),
  /- input_bool.cpp 37 -/ (.char32, ⟨[], [.facet .lettercase (.lettercase .upper)], [.bool none false], false⟩, [70, 65, 76, 83, 69]),
  /- input_bool.cpp 38 -/ ((.wchar true), ⟨[], [.facet .lettercase (.lettercase .upper)], [.bool none false], false⟩, [70, 65, 76, 83, 69]),
  /- input_bool.cpp 40 -/ (.char, ⟨[], [], [.bool (some [.left 262144]) true], false⟩, [116, 114, 117, 101]),
  /- input_bool.cpp 41 -/ (.char, ⟨[], [], [.bool (some [.left 196608]) true], false⟩, [116, 114, 117, 101]),
  /- input_bool.cpp 42 -/ (.char, ⟨[], [], [.bool (some [.left 655360]) true], false⟩, [116, 114, 117, 101, 32, 32, 32, 32, 32, 32]),
  /- input_bool.cpp 43 -/ (.char, ⟨[], [], [.bool (some [.center 655360]) true], false⟩, [32, 32, 32, 116, 114, 117, 101, 32, 32, 32]),
  /- input_bool.cpp 44 -/ (.char, ⟨[], [], [.bool (some [.right 655360]) true], false⟩, [32, 32, 32, 32, 32, 32, 116, 114, 117, 101]),
  /- input_bool.cpp 45 -/ (.char, ⟨[], [.facet .lettercase (.lettercase .mixed)], [.bool (some [.right 655360]) true], false⟩, [32, 32, 32, 32, 32, 32, 84, 114, 117, 101]),
  /- input_bool.cpp 46 -/ (.char, ⟨[], [.facet .lettercase (.lettercase .upper)], [.bool (some [.right 655360]) true], false⟩, [32, 32, 32, 32, 32, 32, 84, 82, 85, 69]),
  /- input_bool.cpp 48 -/ (.char, ⟨[], [], [.bool (some [.left 327680]) false], false⟩, [102, 97, 108, 115, 101]),
  /- input_bool.cpp 49 -/ (.char, ⟨[], [], [.bool (some [.left 262144]) false], false⟩, [102, 97, 108, 115, 101]),
  /- input_bool.cpp 50 -/ (.char, ⟨[], [], [.bool (some [.left 655360]) false], false⟩, [102, 97, 108, 115, 101, 32, 32, 32, 32, 32])] = true := by decide +kernel

end Strf.Program
