import Verif.Conformance.TranscodingBase
/-! Generated by tools/conformance.py from /repo/tests: see Verif/Conformance/TranscodingBase.lean. Tests of the model, not proofs. -/
namespace Strf.Transcode
open Strf.Format

set_option maxRecDepth 100000 in
example : allTranscode [
  /- utf8_to_utf16.cpp 19 -/ ⟨false, .char8, .char16, ⟨.utf .utf8, true⟩, ⟨.utf .utf16, true⟩, ⟨false, false, false⟩, 200, [97, 98], [97, 98], .completed, [], []⟩,
  /- utf8_to_utf16.cpp 26 -/ ⟨false, .char8, .char16, ⟨.utf .utf8, true⟩, ⟨.utf .utf16, true⟩, ⟨false, false, false⟩, 200, [194, 128], [128], .completed, [], []⟩,
  /- utf8_to_utf16.cpp 33 -/ ⟨false, .char8, .char16, ⟨.utf .utf8, true⟩, ⟨.utf .utf16, true⟩, ⟨false, false, false⟩, 200, [224, 160, 128], [2048], .completed, [], []⟩,
  /- utf8_to_utf16.cpp 40 -/ ⟨false, .char8, .char16, ⟨.utf .utf8, true⟩, ⟨.utf .utf16, true⟩, ⟨false, false, false⟩, 200, [237, 159, 191], [55295], .completed, [], []⟩,
  /- utf8_to_utf16.cpp 47 -/ ⟨false, .char8, .char16, ⟨.utf .utf8, true⟩, ⟨.utf .utf16, true⟩, ⟨false, false, false⟩, 200, [240, 144, 128, 128], [55296, 56320], .completed, [], []⟩,
  /- utf8_to_utf16.cpp 54 -/ ⟨false, .char8, .char16, ⟨.utf .utf8, true⟩, ⟨.utf .utf16, true⟩, ⟨false, false, false⟩, 200, [244, 143, 191, 191], [56319, 57343], .completed, [], []⟩,
  /- utf8_to_utf16.cpp 85 -/ ⟨false, .char8, .char16, ⟨.utf .utf8, true⟩, ⟨.utf .utf16, true⟩, ⟨false, false, false⟩, 3, [97, 98, 244, 143, 191, 191], [97, 98], .insufficient, [], []⟩,
  /- utf8_to_utf16.cpp 93 -/ ⟨false, .char8, .char16, ⟨.utf .utf8, true⟩, ⟨.utf .utf16, true⟩, ⟨false, false, false⟩, 0, [97, 98, 244, 143, 191, 191], [], .insufficient, [], []⟩,
  /- utf8_to_utf16.cpp 105 -/ ⟨true, .char8, .char16, ⟨.utf .utf8, true⟩, ⟨.utf .utf16, true⟩, ⟨false, false, false⟩, 200, [97, 98], [97, 98], .completed, [], []⟩,
  /- utf8_to_utf16.cpp 112 -/ ⟨true, .char8, .char16, ⟨.utf .utf8, true⟩, ⟨.utf .utf16, true⟩, ⟨false, false, false⟩, 200, [194, 128], [128], .completed, [], []⟩,
  /- utf8_to_utf16.cpp 119 -/ ⟨true, .char8, .char16, ⟨.utf .utf8, true⟩, ⟨.utf .utf16, true⟩, ⟨false, false, false⟩, 200, [224, 160, 128], [2048], .completed, [], []⟩,
  /- utf8_to_utf16.cpp 126 -/ ⟨true, .char8, .char16, ⟨.utf .utf8, true⟩, ⟨.utf .utf16, true⟩, ⟨false, false, false⟩, 200, [237, 159, 191], [55295], .completed, [], []⟩,
  /- utf8_to_utf16.cpp 133 -/ ⟨true, .char8, .char16, ⟨.utf .utf8, true⟩, ⟨.utf .utf16, true⟩, ⟨false, false, false⟩, 200, [240, 144, 128, 128], [55296, 56320], .completed, [], []⟩,
  /- utf8_to_utf16.cpp 140 -/ ⟨true, .char8, .char16, ⟨.utf .utf8, true⟩, ⟨.utf .utf16, true⟩, ⟨false, false, false⟩, 200, [244, 143, 191, 191], [56319, 57343], .completed, [], []⟩,
  /- utf8_to_utf16.cpp 152 -/ ⟨true, .char8, .char16, ⟨.utf .utf8, true⟩, ⟨.utf .utf16, true⟩, ⟨false, false, false⟩, 3, [97, 98, 244, 143, 191, 191], [97, 98], .insufficient, [], []⟩,
  /- utf8_to_utf16.cpp 160 -/ ⟨true, .char8, .char16, ⟨.utf .utf8, true⟩, ⟨.utf .utf16, true⟩, ⟨false, false, false⟩, 0, [97, 98, 244, 143, 191, 191], [], .insufficient, [], []⟩,
  /- utf8_to_utf16.cpp 202 -/ ⟨true, .char, .char16, ⟨.utf .utf8, true⟩, ⟨.utf .utf16, true⟩, ⟨true, false, false⟩, 200, [32, 237, 160, 128], [32, 55296], .completed, [], []⟩,
  /- utf8_to_utf16.cpp 207 -/ ⟨true, .char, .char16, ⟨.utf .utf8, true⟩, ⟨.utf .utf16, true⟩, ⟨true, false, false⟩, 200, [32, 237, 175, 191], [32, 56319], .completed, [], []⟩,
  /- utf8_to_utf16.cpp 212 -/ ⟨true, .char, .char16, ⟨.utf .utf8, true⟩, ⟨.utf .utf16, true⟩, ⟨true, false, false⟩, 200, [32, 237, 176, 128], [32, 56320], .completed, [], []⟩,
  /- utf8_to_utf16.cpp 217 -/ ⟨true, .char, .char16, ⟨.utf .utf8, true⟩, ⟨.utf .utf16, true⟩, ⟨true, false, false⟩, 200, [32, 237, 191, 191], [32, 57343], .completed, [], []⟩,
  /- utf8_to_utf16.cpp 223 -/ ⟨true, .char, .char16, ⟨.utf .utf8, true⟩, ⟨.utf .utf16, true⟩, ⟨true, true, false⟩, 200, [32, 237, 160, 128], [32, 55296], .completed, [], []⟩,
  /- utf8_to_utf16.cpp 229 -/ ⟨true, .char, .char16, ⟨.utf .utf8, true⟩, ⟨.utf .utf16, true⟩, ⟨true, true, false⟩, 200, [32, 237, 175, 191], [32, 56319], .completed, [], []⟩,
  /- utf8_to_utf16.cpp 235 -/ ⟨true, .char, .char16, ⟨.utf .utf8, true⟩, ⟨.utf .utf16, true⟩, ⟨true, true, false⟩, 200, [32, 237, 176, 128], [32, 56320], .completed, [], []⟩,
  /- utf8_to_utf16.cpp 241 -/ ⟨true, .char, .char16, ⟨.utf .utf8, true⟩, ⟨.utf .utf16, true⟩, ⟨true, true, false⟩, 200, [32, 237, 191, 191], [32, 57343], .completed, [], []⟩,
  /- utf8_to_utf16.cpp 252 -/ ⟨true, .char8, .char16, ⟨.utf .utf8, true⟩, ⟨.utf .utf16, true⟩, ⟨false, true, false⟩, 200, [97, 98], [97, 98], .completed, [], []⟩,
  /- utf8_to_utf16.cpp 260 -/ ⟨true, .char8, .char16, ⟨.utf .utf8, true⟩, ⟨.utf .utf16, true⟩, ⟨false, true, false⟩, 200, [194, 128], [128], .completed, [], []⟩,
  /- utf8_to_utf16.cpp 268 -/ ⟨true, .char8, .char16, ⟨.utf .utf8, true⟩, ⟨.utf .utf16, true⟩, ⟨false, true, false⟩, 200, [224, 160, 128], [2048], .completed, [], []⟩,
  /- utf8_to_utf16.cpp 276 -/ ⟨true, .char8, .char16, ⟨.utf .utf8, true⟩, ⟨.utf .utf16, true⟩, ⟨false, false, false⟩, 200, [237, 159, 191], [55295], .completed, [], []⟩,
  /- utf8_to_utf16.cpp 283 -/ ⟨true, .char8, .char16, ⟨.utf .utf8, true⟩, ⟨.utf .utf16, true⟩, ⟨false, true, false⟩, 200, [240, 144, 128, 128], [55296, 56320], .completed, [], []⟩,
  /- utf8_to_utf16.cpp 291 -/ ⟨true, .char8, .char16, ⟨.utf .utf8, true⟩, ⟨.utf .utf16, true⟩, ⟨false, true, false⟩, 200, [244, 143, 191, 191], [56319, 57343], .completed, [], []⟩,
  /- utf8_to_utf16.cpp 302 -/ ⟨true, .char, .char16, ⟨.utf .utf8, true⟩, ⟨.utf .utf16, true⟩, ⟨false, true, false⟩, 0, [191], [], .invalid, [[191]], []⟩,
  /- utf8_to_utf16.cpp 313 -/ ⟨true, .char, .char16, ⟨.utf .utf8, true⟩, ⟨.utf .utf16, true⟩, ⟨false, false, true⟩, 200, [32, 241, 128, 128, 225, 128, 192, 32], [32, 65533, 65533, 65533, 32], .completed, [[241, 128, 128], [225, 128], [192]], []⟩,
  /- utf8_to_utf16.cpp 320 -/ ⟨true, .char, .char16, ⟨.utf .utf8, true⟩, ⟨.utf .utf16, true⟩, ⟨false, true, false⟩, 0, [241, 128, 128, 225, 128, 192, 32], [], .invalid, [[241, 128, 128]], []⟩,
  /- utf8_to_utf16.cpp 330 -/ ⟨true, .char, .char16, ⟨.utf .utf8, true⟩, ⟨.utf .utf16, true⟩, ⟨false, false, true⟩, 200, [32, 191, 32], [32, 65533, 32], .completed, [[191]], []⟩,
  /- utf8_to_utf16.cpp 337 -/ ⟨true, .char, .char16, ⟨.utf .utf8, true⟩, ⟨.utf .utf16, true⟩, ⟨false, true, false⟩, 0, [191, 32], [], .invalid, [[191]], []⟩,
  /- utf8_to_utf16.cpp 347 -/ ⟨true, .char, .char16, ⟨.utf .utf8, true⟩, ⟨.utf .utf16, true⟩, ⟨false, false, true⟩, 200, [32, 128, 128, 32], [32, 65533, 65533, 32], .completed, [[128], [128]], []⟩,
  /- utf8_to_utf16.cpp 354 -/ ⟨true, .char, .char16, ⟨.utf .utf8, true⟩, ⟨.utf .utf16, true⟩, ⟨false, true, false⟩, 0, [128, 128, 32], [], .invalid, [[128]], []⟩,
  /- utf8_to_utf16.cpp 364 -/ ⟨true, .char, .char16, ⟨.utf .utf8, true⟩, ⟨.utf .utf16, true⟩, ⟨false, false, true⟩, 200, [32, 193, 191, 32], [32, 65533, 65533, 32], .completed, [[193], [191]], []⟩,
  /- utf8_to_utf16.cpp 371 -/ ⟨true, .char, .char16, ⟨.utf .utf8, true⟩, ⟨.utf .utf16, true⟩, ⟨false, true, false⟩, 0, [193, 191, 32], [], .invalid, [[193]], []⟩,
  /- utf8_to_utf16.cpp 381 -/ ⟨true, .char, .char16, ⟨.utf .utf8, true⟩, ⟨.utf .utf16, true⟩, ⟨false, false, true⟩, 200, [32, 224, 159, 128, 32], [32, 65533, 65533, 65533, 32], .completed, [[224], [159], [128]], []⟩] = true := by decide +kernel

set_option maxRecDepth 100000 in
example : allTranscode [
  /- utf8_to_utf16.cpp 388 -/ ⟨true, .char, .char16, ⟨.utf .utf8, true⟩, ⟨.utf .utf16, true⟩, ⟨false, true, false⟩, 0, [224, 159, 128, 32], [], .invalid, [[224]], []⟩,
  /- utf8_to_utf16.cpp 398 -/ ⟨true, .char, .char16, ⟨.utf .utf8, true⟩, ⟨.utf .utf16, true⟩, ⟨false, false, true⟩, 200, [32, 193, 191, 128, 32], [32, 65533, 65533, 65533, 32], .completed, [[193], [191], [128]], []⟩,
  /- utf8_to_utf16.cpp 405 -/ ⟨true, .char, .char16, ⟨.utf .utf8, true⟩, ⟨.utf .utf16, true⟩, ⟨false, true, false⟩, 0, [193, 191, 128, 32], [], .invalid, [[193]], []⟩,
  /- utf8_to_utf16.cpp 415 -/ ⟨true, .char, .char16, ⟨.utf .utf8, true⟩, ⟨.utf .utf16, true⟩, ⟨false, false, true⟩, 200, [32, 224, 159, 128, 128, 32], [32, 65533, 65533, 65533, 65533, 32], .completed, [[224], [159], [128], [128]], []⟩,
  /- utf8_to_utf16.cpp 422 -/ ⟨true, .char, .char16, ⟨.utf .utf8, true⟩, ⟨.utf .utf16, true⟩, ⟨false, true, false⟩, 0, [224, 159, 128, 128, 32], [], .invalid, [[224]], []⟩,
  /- utf8_to_utf16.cpp 432 -/ ⟨true, .char, .char16, ⟨.utf .utf8, true⟩, ⟨.utf .utf16, true⟩, ⟨false, false, true⟩, 200, [32, 240, 143, 191, 191, 32], [32, 65533, 65533, 65533, 65533, 32], .completed, [[240], [143], [191], [191]], []⟩,
  /- utf8_to_utf16.cpp 439 -/ ⟨true, .char, .char16, ⟨.utf .utf8, true⟩, ⟨.utf .utf16, true⟩, ⟨false, true, false⟩, 0, [240, 143, 191, 191, 32], [], .invalid, [[240]], []⟩,
  /- utf8_to_utf16.cpp 449 -/ ⟨true, .char, .char16, ⟨.utf .utf8, true⟩, ⟨.utf .utf16, true⟩, ⟨false, false, true⟩, 200, [32, 240, 143, 191, 191, 128, 32], [32, 65533, 65533, 65533, 65533, 65533, 32], .completed, [[240], [143], [191], [191], [128]], []⟩,
  /- utf8_to_utf16.cpp 456 -/ ⟨true, .char, .char16, ⟨.utf .utf8, true⟩, ⟨.utf .utf16, true⟩, ⟨false, true, false⟩, 0, [240, 143, 191, 191, 128, 32], [], .invalid, [[240]], []⟩,
  /- utf8_to_utf16.cpp 466 -/ ⟨true, .char, .char16, ⟨.utf .utf8, true⟩, ⟨.utf .utf16, true⟩, ⟨false, false, true⟩, 200, [32, 244, 191, 191, 191, 32], [32, 65533, 65533, 65533, 65533, 32], .completed, [[244], [191], [191], [191]], []⟩,
  /- utf8_to_utf16.cpp 473 -/ ⟨true, .char, .char16, ⟨.utf .utf8, true⟩, ⟨.utf .utf16, true⟩, ⟨false, true, false⟩, 0, [244, 191, 191, 191, 32], [], .invalid, [[244]], []⟩,
  /- utf8_to_utf16.cpp 482 -/ ⟨true, .char, .char16, ⟨.utf .utf8, true⟩, ⟨.utf .utf16, true⟩, ⟨false, false, true⟩, 200, [32, 244, 144, 128, 128, 32], [32, 65533, 65533, 65533, 65533, 32], .completed, [[244], [144], [128], [128]], []⟩,
  /- utf8_to_utf16.cpp 489 -/ ⟨true, .char, .char16, ⟨.utf .utf8, true⟩, ⟨.utf .utf16, true⟩, ⟨false, true, false⟩, 0, [244, 144, 128, 128, 32], [], .invalid, [[244]], []⟩,
  /- utf8_to_utf16.cpp 498 -/ ⟨true, .char, .char16, ⟨.utf .utf8, true⟩, ⟨.utf .utf16, true⟩, ⟨false, false, true⟩, 200, [32, 245, 128, 128, 128, 32], [32, 65533, 65533, 65533, 65533, 32], .completed, [[245], [128], [128], [128]], []⟩,
  /- utf8_to_utf16.cpp 505 -/ ⟨true, .char, .char16, ⟨.utf .utf8, true⟩, ⟨.utf .utf16, true⟩, ⟨false, true, false⟩, 0, [245, 128, 128, 128, 32], [], .invalid, [[245]], []⟩,
  /- utf8_to_utf16.cpp 514 -/ ⟨true, .char, .char16, ⟨.utf .utf8, true⟩, ⟨.utf .utf16, true⟩, ⟨false, false, true⟩, 200, [32, 246, 128, 128, 128, 32], [32, 65533, 65533, 65533, 65533, 32], .completed, [[246], [128], [128], [128]], []⟩,
  /- utf8_to_utf16.cpp 521 -/ ⟨true, .char, .char16, ⟨.utf .utf8, true⟩, ⟨.utf .utf16, true⟩, ⟨false, true, false⟩, 0, [246, 128, 128, 128, 32], [], .invalid, [[246]], []⟩,
  /- utf8_to_utf16.cpp 530 -/ ⟨true, .char, .char16, ⟨.utf .utf8, true⟩, ⟨.utf .utf16, true⟩, ⟨false, false, true⟩, 200, [32, 247, 128, 128, 128, 32], [32, 65533, 65533, 65533, 65533, 32], .completed, [[247], [128], [128], [128]], []⟩,
  /- utf8_to_utf16.cpp 537 -/ ⟨true, .char, .char16, ⟨.utf .utf8, true⟩, ⟨.utf .utf16, true⟩, ⟨false, true, false⟩, 0, [247, 128, 128, 128, 32], [], .invalid, [[247]], []⟩,
  /- utf8_to_utf16.cpp 546 -/ ⟨true, .char, .char16, ⟨.utf .utf8, true⟩, ⟨.utf .utf16, true⟩, ⟨false, false, true⟩, 200, [32, 248, 128, 128, 128, 32], [32, 65533, 65533, 65533, 65533, 32], .completed, [[248], [128], [128], [128]], []⟩,
  /- utf8_to_utf16.cpp 553 -/ ⟨true, .char, .char16, ⟨.utf .utf8, true⟩, ⟨.utf .utf16, true⟩, ⟨false, true, false⟩, 0, [248, 128, 128, 128, 32], [], .invalid, [[248]], []⟩,
  /- utf8_to_utf16.cpp 562 -/ ⟨true, .char, .char16, ⟨.utf .utf8, true⟩, ⟨.utf .utf16, true⟩, ⟨false, false, true⟩, 200, [32, 249, 128, 128, 128, 32], [32, 65533, 65533, 65533, 65533, 32], .completed, [[249], [128], [128], [128]], []⟩,
  /- utf8_to_utf16.cpp 569 -/ ⟨true, .char, .char16, ⟨.utf .utf8, true⟩, ⟨.utf .utf16, true⟩, ⟨false, true, false⟩, 0, [249, 128, 128, 128, 32], [], .invalid, [[249]], []⟩,
  /- utf8_to_utf16.cpp 578 -/ ⟨true, .char, .char16, ⟨.utf .utf8, true⟩, ⟨.utf .utf16, true⟩, ⟨false, false, true⟩, 200, [32, 250, 128, 128, 128, 32], [32, 65533, 65533, 65533, 65533, 32], .completed, [[250], [128], [128], [128]], []⟩,
  /- utf8_to_utf16.cpp 585 -/ ⟨true, .char, .char16, ⟨.utf .utf8, true⟩, ⟨.utf .utf16, true⟩, ⟨false, true, false⟩, 0, [249, 128, 128, 128, 32], [], .invalid, [[249]], []⟩,
  /- utf8_to_utf16.cpp 594 -/ ⟨true, .char, .char16, ⟨.utf .utf8, true⟩, ⟨.utf .utf16, true⟩, ⟨false, false, true⟩, 200, [32, 251, 128, 128, 128, 32], [32, 65533, 65533, 65533, 65533, 32], .completed, [[251], [128], [128], [128]], []⟩,
  /- utf8_to_utf16.cpp 601 -/ ⟨true, .char, .char16, ⟨.utf .utf8, true⟩, ⟨.utf .utf16, true⟩, ⟨false, true, false⟩, 0, [251, 128, 128, 128, 32], [], .invalid, [[251]], []⟩,
  /- utf8_to_utf16.cpp 610 -/ ⟨true, .char, .char16, ⟨.utf .utf8, true⟩, ⟨.utf .utf16, true⟩, ⟨false, false, true⟩, 200, [32, 252, 128, 128, 128, 32], [32, 65533, 65533, 65533, 65533, 32], .completed, [[252], [128], [128], [128]], []⟩,
  /- utf8_to_utf16.cpp 617 -/ ⟨true, .char, .char16, ⟨.utf .utf8, true⟩, ⟨.utf .utf16, true⟩, ⟨false, true, false⟩, 0, [252, 128, 128, 128, 32], [], .invalid, [[252]], []⟩,
  /- utf8_to_utf16.cpp 626 -/ ⟨true, .char, .char16, ⟨.utf .utf8, true⟩, ⟨.utf .utf16, true⟩, ⟨false, false, true⟩, 200, [32, 253, 128, 128, 128, 32], [32, 65533, 65533, 65533, 65533, 32], .completed, [[253], [128], [128], [128]], []⟩,
  /- utf8_to_utf16.cpp 633 -/ ⟨true, .char, .char16, ⟨.utf .utf8, true⟩, ⟨.utf .utf16, true⟩, ⟨false, true, false⟩, 0, [253, 128, 128, 128, 32], [], .invalid, [[253]], []⟩,
  /- utf8_to_utf16.cpp 642 -/ ⟨true, .char, .char16, ⟨.utf .utf8, true⟩, ⟨.utf .utf16, true⟩, ⟨false, false, true⟩, 200, [32, 254, 128, 128, 128, 32], [32, 65533, 65533, 65533, 65533, 32], .completed, [[254], [128], [128], [128]], []⟩,
  /- utf8_to_utf16.cpp 649 -/ ⟨true, .char, .char16, ⟨.utf .utf8, true⟩, ⟨.utf .utf16, true⟩, ⟨false, true, false⟩, 0, [254, 128, 128, 128, 32], [], .invalid, [[254]], []⟩,
  /- utf8_to_utf16.cpp 658 -/ ⟨true, .char, .char16, ⟨.utf .utf8, true⟩, ⟨.utf .utf16, true⟩, ⟨false, false, true⟩, 200, [32, 255, 128, 128, 128, 32], [32, 65533, 65533, 65533, 65533, 32], .completed, [[255], [128], [128], [128]], []⟩,
  /- utf8_to_utf16.cpp 665 -/ ⟨true, .char, .char16, ⟨.utf .utf8, true⟩, ⟨.utf .utf16, true⟩, ⟨false, true, false⟩, 0, [255, 128, 128, 128, 32], [], .invalid, [[255]], []⟩,
  /- utf8_to_utf16.cpp 674 -/ ⟨true, .char, .char16, ⟨.utf .utf8, true⟩, ⟨.utf .utf16, true⟩, ⟨false, false, true⟩, 200, [32, 255, 128, 128, 32], [32, 65533, 65533, 65533, 32], .completed, [[255], [128], [128]], []⟩,
  /- utf8_to_utf16.cpp 683 -/ ⟨true, .char, .char16, ⟨.utf .utf8, true⟩, ⟨.utf .utf16, true⟩, ⟨false, false, true⟩, 200, [32, 245, 144, 128, 128, 128, 128, 32], [32, 65533, 65533, 65533, 65533, 65533, 65533, 32], .completed, [[245], [144], [128], [128], [128], [128]], []⟩,
  /- utf8_to_utf16.cpp 690 -/ ⟨true, .char, .char16, ⟨.utf .utf8, true⟩, ⟨.utf .utf16, true⟩, ⟨false, true, false⟩, 0, [245, 144, 128, 128, 128, 128, 32], [], .invalid, [[245]], []⟩,
  /- utf8_to_utf16.cpp 700 -/ ⟨true, .char, .char16, ⟨.utf .utf8, true⟩, ⟨.utf .utf16, true⟩, ⟨false, false, true⟩, 200, [32, 194, 32], [32, 65533, 32], .completed, [[194]], []⟩,
  /- utf8_to_utf16.cpp 707 -/ ⟨true, .char, .char16, ⟨.utf .utf8, true⟩, ⟨.utf .utf16, true⟩, ⟨false, true, false⟩, 0, [194, 32], [], .invalid, [[194]], []⟩] = true := by decide +kernel

set_option maxRecDepth 100000 in
example : allTranscode [
  /- utf8_to_utf16.cpp 716 -/ ⟨true, .char, .char16, ⟨.utf .utf8, true⟩, ⟨.utf .utf16, true⟩, ⟨false, false, true⟩, 200, [32, 224, 32], [32, 65533, 32], .completed, [[224]], []⟩,
  /- utf8_to_utf16.cpp 723 -/ ⟨true, .char, .char16, ⟨.utf .utf8, true⟩, ⟨.utf .utf16, true⟩, ⟨false, true, false⟩, 0, [224, 32], [], .invalid, [[224]], []⟩,
  /- utf8_to_utf16.cpp 733 -/ ⟨true, .char, .char16, ⟨.utf .utf8, true⟩, ⟨.utf .utf16, true⟩, ⟨false, false, true⟩, 200, [32, 224, 160, 32], [32, 65533, 32], .completed, [[224, 160]], []⟩,
  /- utf8_to_utf16.cpp 740 -/ ⟨true, .char, .char16, ⟨.utf .utf8, true⟩, ⟨.utf .utf16, true⟩, ⟨false, true, false⟩, 0, [224, 160, 32], [], .invalid, [[224, 160]], []⟩,
  /- utf8_to_utf16.cpp 750 -/ ⟨true, .char, .char16, ⟨.utf .utf8, true⟩, ⟨.utf .utf16, true⟩, ⟨false, false, true⟩, 200, [32, 225, 32], [32, 65533, 32], .completed, [[225]], []⟩,
  /- utf8_to_utf16.cpp 757 -/ ⟨true, .char, .char16, ⟨.utf .utf8, true⟩, ⟨.utf .utf16, true⟩, ⟨false, true, false⟩, 0, [225, 32], [], .invalid, [[225]], []⟩,
  /- utf8_to_utf16.cpp 767 -/ ⟨true, .char, .char16, ⟨.utf .utf8, true⟩, ⟨.utf .utf16, true⟩, ⟨false, false, true⟩, 200, [32, 240, 144, 191, 32], [32, 65533, 32], .completed, [[240, 144, 191]], []⟩,
  /- utf8_to_utf16.cpp 774 -/ ⟨true, .char, .char16, ⟨.utf .utf8, true⟩, ⟨.utf .utf16, true⟩, ⟨false, true, false⟩, 0, [240, 144, 191, 32], [], .invalid, [[240, 144, 191]], []⟩,
  /- utf8_to_utf16.cpp 784 -/ ⟨true, .char, .char16, ⟨.utf .utf8, true⟩, ⟨.utf .utf16, true⟩, ⟨false, false, true⟩, 200, [32, 241, 32], [32, 65533, 32], .completed, [[241]], []⟩,
  /- utf8_to_utf16.cpp 791 -/ ⟨true, .char, .char16, ⟨.utf .utf8, true⟩, ⟨.utf .utf16, true⟩, ⟨false, true, false⟩, 0, [241, 32], [], .invalid, [[241]], []⟩,
  /- utf8_to_utf16.cpp 801 -/ ⟨true, .char, .char16, ⟨.utf .utf8, true⟩, ⟨.utf .utf16, true⟩, ⟨false, false, true⟩, 200, [32, 241, 129, 32], [32, 65533, 32], .completed, [[241, 129]], []⟩,
  /- utf8_to_utf16.cpp 808 -/ ⟨true, .char, .char16, ⟨.utf .utf8, true⟩, ⟨.utf .utf16, true⟩, ⟨false, true, false⟩, 0, [241, 129, 32], [], .invalid, [[241, 129]], []⟩,
  /- utf8_to_utf16.cpp 818 -/ ⟨true, .char, .char16, ⟨.utf .utf8, true⟩, ⟨.utf .utf16, true⟩, ⟨false, false, true⟩, 200, [32, 241, 129, 129, 32], [32, 65533, 32], .completed, [[241, 129, 129]], []⟩,
  /- utf8_to_utf16.cpp 825 -/ ⟨true, .char, .char16, ⟨.utf .utf8, true⟩, ⟨.utf .utf16, true⟩, ⟨false, true, false⟩, 0, [241, 129, 129, 32], [], .invalid, [[241, 129, 129]], []⟩,
  /- utf8_to_utf16.cpp 836 -/ ⟨true, .char, .char16, ⟨.utf .utf8, true⟩, ⟨.utf .utf16, true⟩, ⟨false, false, true⟩, 200, [32, 237, 160, 128, 32], [32, 65533, 65533, 65533, 32], .completed, [[237], [160], [128]], []⟩,
  /- utf8_to_utf16.cpp 843 -/ ⟨true, .char, .char16, ⟨.utf .utf8, true⟩, ⟨.utf .utf16, true⟩, ⟨false, true, false⟩, 0, [237, 160, 128, 32], [], .invalid, [[237]], []⟩,
  /- utf8_to_utf16.cpp 852 -/ ⟨true, .char, .char16, ⟨.utf .utf8, true⟩, ⟨.utf .utf16, true⟩, ⟨false, false, true⟩, 200, [32, 237, 175, 191, 32], [32, 65533, 65533, 65533, 32], .completed, [[237], [175], [191]], []⟩,
  /- utf8_to_utf16.cpp 859 -/ ⟨true, .char, .char16, ⟨.utf .utf8, true⟩, ⟨.utf .utf16, true⟩, ⟨false, true, false⟩, 0, [237, 175, 191, 32], [], .invalid, [[237]], []⟩,
  /- utf8_to_utf16.cpp 868 -/ ⟨true, .char, .char16, ⟨.utf .utf8, true⟩, ⟨.utf .utf16, true⟩, ⟨false, false, true⟩, 200, [32, 237, 176, 128, 32], [32, 65533, 65533, 65533, 32], .completed, [[237], [176], [128]], []⟩,
  /- utf8_to_utf16.cpp 875 -/ ⟨true, .char, .char16, ⟨.utf .utf8, true⟩, ⟨.utf .utf16, true⟩, ⟨false, true, false⟩, 0, [237, 176, 128, 32], [], .invalid, [[237]], []⟩,
  /- utf8_to_utf16.cpp 884 -/ ⟨true, .char, .char16, ⟨.utf .utf8, true⟩, ⟨.utf .utf16, true⟩, ⟨false, false, true⟩, 200, [32, 237, 176, 128, 32], [32, 65533, 65533, 65533, 32], .completed, [[237], [176], [128]], []⟩,
  /- utf8_to_utf16.cpp 891 -/ ⟨true, .char, .char16, ⟨.utf .utf8, true⟩, ⟨.utf .utf16, true⟩, ⟨false, true, false⟩, 0, [237, 176, 128, 32], [], .invalid, [[237]], []⟩,
  /- utf8_to_utf16.cpp 900 -/ ⟨true, .char, .char16, ⟨.utf .utf8, true⟩, ⟨.utf .utf16, true⟩, ⟨false, false, true⟩, 200, [32, 237, 160, 128, 32], [32, 65533, 65533, 65533, 32], .completed, [[237], [160], [128]], []⟩,
  /- utf8_to_utf16.cpp 907 -/ ⟨true, .char, .char16, ⟨.utf .utf8, true⟩, ⟨.utf .utf16, true⟩, ⟨false, true, false⟩, 0, [237, 160, 128, 32], [], .invalid, [[237]], []⟩,
  /- utf8_to_utf16.cpp 916 -/ ⟨true, .char, .char16, ⟨.utf .utf8, true⟩, ⟨.utf .utf16, true⟩, ⟨false, false, true⟩, 200, [32, 237, 175, 191, 32], [32, 65533, 65533, 65533, 32], .completed, [[237], [175], [191]], []⟩,
  /- utf8_to_utf16.cpp 923 -/ ⟨true, .char, .char16, ⟨.utf .utf8, true⟩, ⟨.utf .utf16, true⟩, ⟨false, true, false⟩, 0, [237, 175, 191, 32], [], .invalid, [[237]], []⟩,
  /- utf8_to_utf16.cpp 932 -/ ⟨true, .char, .char16, ⟨.utf .utf8, true⟩, ⟨.utf .utf16, true⟩, ⟨false, false, true⟩, 200, [32, 237, 176, 128, 32], [32, 65533, 65533, 65533, 32], .completed, [[237], [176], [128]], []⟩,
  /- utf8_to_utf16.cpp 939 -/ ⟨true, .char, .char16, ⟨.utf .utf8, true⟩, ⟨.utf .utf16, true⟩, ⟨false, true, false⟩, 0, [237, 176, 128, 32], [], .invalid, [[237]], []⟩,
  /- utf8_to_utf16.cpp 948 -/ ⟨true, .char, .char16, ⟨.utf .utf8, true⟩, ⟨.utf .utf16, true⟩, ⟨false, false, true⟩, 200, [32, 237, 191, 191, 32], [32, 65533, 65533, 65533, 32], .completed, [[237], [191], [191]], []⟩,
  /- utf8_to_utf16.cpp 955 -/ ⟨true, .char, .char16, ⟨.utf .utf8, true⟩, ⟨.utf .utf16, true⟩, ⟨false, true, false⟩, 0, [237, 191, 191, 32], [], .invalid, [[237]], []⟩,
  /- utf8_to_utf16.cpp 965 -/ ⟨true, .char, .char16, ⟨.utf .utf8, true⟩, ⟨.utf .utf16, true⟩, ⟨false, false, true⟩, 200, [32, 237, 160, 32], [32, 65533, 65533, 32], .completed, [[237], [160]], []⟩,
  /- utf8_to_utf16.cpp 972 -/ ⟨true, .char, .char16, ⟨.utf .utf8, true⟩, ⟨.utf .utf16, true⟩, ⟨false, true, false⟩, 0, [237, 160, 32], [], .invalid, [[237]], []⟩,
  /- utf8_to_utf16.cpp 981 -/ ⟨true, .char, .char16, ⟨.utf .utf8, true⟩, ⟨.utf .utf16, true⟩, ⟨false, false, true⟩, 200, [32, 237, 191, 32], [32, 65533, 65533, 32], .completed, [[237], [191]], []⟩,
  /- utf8_to_utf16.cpp 988 -/ ⟨true, .char, .char16, ⟨.utf .utf8, true⟩, ⟨.utf .utf16, true⟩, ⟨false, true, false⟩, 0, [237, 191, 32], [], .invalid, [[237]], []⟩,
  /- utf8_to_utf16.cpp 1001 -/ ⟨true, .char, .char16, ⟨.utf .utf8, true⟩, ⟨.utf .utf16, true⟩, ⟨true, false, false⟩, 200, [237, 160], [65533], .completed, [[237, 160]], []⟩,
  /- utf8_to_utf16.cpp 1008 -/ ⟨true, .char, .char16, ⟨.utf .utf8, true⟩, ⟨.utf .utf16, true⟩, ⟨true, true, false⟩, 0, [237, 160], [], .invalid, [[237, 160]], []⟩,
  /- utf8_to_utf16.cpp 1018 -/ ⟨true, .char, .char16, ⟨.utf .utf8, true⟩, ⟨.utf .utf16, true⟩, ⟨true, false, false⟩, 200, [237, 191], [65533], .completed, [[237, 191]], []⟩,
  /- utf8_to_utf16.cpp 1025 -/ ⟨true, .char, .char16, ⟨.utf .utf8, true⟩, ⟨.utf .utf16, true⟩, ⟨true, true, false⟩, 0, [237, 191], [], .invalid, [[237, 191]], []⟩,
  /- utf8_to_utf16.cpp 1036 -/ ⟨true, .char, .char16, ⟨.utf .utf8, true⟩, ⟨.utf .utf16, true⟩, ⟨false, false, true⟩, 200, [32, 237, 159, 32], [32, 65533, 32], .completed, [[237, 159]], []⟩,
  /- utf8_to_utf16.cpp 1043 -/ ⟨true, .char, .char16, ⟨.utf .utf8, true⟩, ⟨.utf .utf16, true⟩, ⟨false, true, false⟩, 0, [237, 159], [], .invalid, [[237, 159]], []⟩] = true := by decide +kernel

set_option maxRecDepth 100000 in
example : allTranscode [
  /- utf8_to_utf16.cpp 1058 -/ ⟨true, .char, .char16, ⟨.utf .utf8, true⟩, ⟨.utf .utf16, true⟩, ⟨false, true, false⟩, 0, [191], [], .invalid, [[191]], []⟩,
  /- utf8_to_utf16.cpp 1066 -/ ⟨true, .char, .char16, ⟨.utf .utf8, true⟩, ⟨.utf .utf16, true⟩, ⟨false, true, false⟩, 0, [95, 191], [], .insufficient, [], []⟩,
  /- utf8_to_utf32.cpp 19 -/ ⟨false, .char8, .char32, ⟨.utf .utf8, true⟩, ⟨.utf .utf32, true⟩, ⟨false, false, false⟩, 200, [97, 98], [97, 98], .completed, [], []⟩,
  /- utf8_to_utf32.cpp 26 -/ ⟨false, .char8, .char32, ⟨.utf .utf8, true⟩, ⟨.utf .utf32, true⟩, ⟨false, false, false⟩, 200, [194, 128], [128], .completed, [], []⟩,
  /- utf8_to_utf32.cpp 33 -/ ⟨false, .char8, .char32, ⟨.utf .utf8, true⟩, ⟨.utf .utf32, true⟩, ⟨false, false, false⟩, 200, [224, 160, 128], [2048], .completed, [], []⟩,
  /- utf8_to_utf32.cpp 40 -/ ⟨false, .char8, .char32, ⟨.utf .utf8, true⟩, ⟨.utf .utf32, true⟩, ⟨false, false, false⟩, 200, [237, 159, 191], [55295], .completed, [], []⟩,
  /- utf8_to_utf32.cpp 47 -/ ⟨false, .char8, .char32, ⟨.utf .utf8, true⟩, ⟨.utf .utf32, true⟩, ⟨false, false, false⟩, 200, [240, 144, 128, 128], [65536], .completed, [], []⟩,
  /- utf8_to_utf32.cpp 54 -/ ⟨false, .char8, .char32, ⟨.utf .utf8, true⟩, ⟨.utf .utf32, true⟩, ⟨false, false, false⟩, 200, [244, 143, 191, 191], [1114111], .completed, [], []⟩,
  /- utf8_to_utf32.cpp 95 -/ ⟨false, .char8, .char32, ⟨.utf .utf8, true⟩, ⟨.utf .utf32, true⟩, ⟨false, false, false⟩, 2, [97, 98, 244, 143, 191, 191], [97, 98], .insufficient, [], []⟩,
  /- utf8_to_utf32.cpp 103 -/ ⟨false, .char8, .char32, ⟨.utf .utf8, true⟩, ⟨.utf .utf32, true⟩, ⟨false, false, false⟩, 0, [97, 98, 244, 143, 191, 191], [], .insufficient, [], []⟩,
  /- utf8_to_utf32.cpp 114 -/ ⟨true, .char8, .char32, ⟨.utf .utf8, true⟩, ⟨.utf .utf32, true⟩, ⟨false, false, false⟩, 200, [97, 98], [97, 98], .completed, [], []⟩,
  /- utf8_to_utf32.cpp 121 -/ ⟨true, .char8, .char32, ⟨.utf .utf8, true⟩, ⟨.utf .utf32, true⟩, ⟨false, false, false⟩, 200, [194, 128], [128], .completed, [], []⟩,
  /- utf8_to_utf32.cpp 128 -/ ⟨true, .char8, .char32, ⟨.utf .utf8, true⟩, ⟨.utf .utf32, true⟩, ⟨false, false, false⟩, 200, [224, 160, 128], [2048], .completed, [], []⟩,
  /- utf8_to_utf32.cpp 135 -/ ⟨true, .char8, .char32, ⟨.utf .utf8, true⟩, ⟨.utf .utf32, true⟩, ⟨false, false, false⟩, 200, [237, 159, 191], [55295], .completed, [], []⟩,
  /- utf8_to_utf32.cpp 142 -/ ⟨true, .char8, .char32, ⟨.utf .utf8, true⟩, ⟨.utf .utf32, true⟩, ⟨false, false, false⟩, 200, [240, 144, 128, 128], [65536], .completed, [], []⟩,
  /- utf8_to_utf32.cpp 149 -/ ⟨true, .char8, .char32, ⟨.utf .utf8, true⟩, ⟨.utf .utf32, true⟩, ⟨false, false, false⟩, 200, [244, 143, 191, 191], [1114111], .completed, [], []⟩,
  /- utf8_to_utf32.cpp 190 -/ ⟨true, .char8, .char32, ⟨.utf .utf8, true⟩, ⟨.utf .utf32, true⟩, ⟨false, false, false⟩, 2, [97, 98, 244, 143, 191, 191], [97, 98], .insufficient, [], []⟩,
  /- utf8_to_utf32.cpp 198 -/ ⟨true, .char8, .char32, ⟨.utf .utf8, true⟩, ⟨.utf .utf32, true⟩, ⟨false, false, false⟩, 0, [97, 98, 244, 143, 191, 191], [], .insufficient, [], []⟩,
  /- utf8_to_utf32.cpp 213 -/ ⟨true, .char, .char32, ⟨.utf .utf8, true⟩, ⟨.utf .utf32, true⟩, ⟨true, false, false⟩, 200, [32, 237, 160, 128], [32, 55296], .completed, [], []⟩,
  /- utf8_to_utf32.cpp 218 -/ ⟨true, .char, .char32, ⟨.utf .utf8, true⟩, ⟨.utf .utf32, true⟩, ⟨true, false, false⟩, 200, [32, 237, 175, 191], [32, 56319], .completed, [], []⟩,
  /- utf8_to_utf32.cpp 223 -/ ⟨true, .char, .char32, ⟨.utf .utf8, true⟩, ⟨.utf .utf32, true⟩, ⟨true, false, false⟩, 200, [32, 237, 176, 128], [32, 56320], .completed, [], []⟩,
  /- utf8_to_utf32.cpp 228 -/ ⟨true, .char, .char32, ⟨.utf .utf8, true⟩, ⟨.utf .utf32, true⟩, ⟨true, false, false⟩, 200, [32, 237, 191, 191], [32, 57343], .completed, [], []⟩,
  /- utf8_to_utf32.cpp 236 -/ ⟨true, .char8, .char32, ⟨.utf .utf8, true⟩, ⟨.utf .utf32, true⟩, ⟨false, true, false⟩, 200, [97, 98], [97, 98], .completed, [], []⟩,
  /- utf8_to_utf32.cpp 244 -/ ⟨true, .char8, .char32, ⟨.utf .utf8, true⟩, ⟨.utf .utf32, true⟩, ⟨false, true, false⟩, 200, [194, 128], [128], .completed, [], []⟩,
  /- utf8_to_utf32.cpp 252 -/ ⟨true, .char8, .char32, ⟨.utf .utf8, true⟩, ⟨.utf .utf32, true⟩, ⟨false, true, false⟩, 200, [224, 160, 128], [2048], .completed, [], []⟩,
  /- utf8_to_utf32.cpp 260 -/ ⟨true, .char8, .char32, ⟨.utf .utf8, true⟩, ⟨.utf .utf32, true⟩, ⟨false, true, false⟩, 200, [237, 159, 191], [55295], .completed, [], []⟩,
  /- utf8_to_utf32.cpp 268 -/ ⟨true, .char8, .char32, ⟨.utf .utf8, true⟩, ⟨.utf .utf32, true⟩, ⟨false, true, false⟩, 200, [240, 144, 128, 128], [65536], .completed, [], []⟩,
  /- utf8_to_utf32.cpp 276 -/ ⟨true, .char8, .char32, ⟨.utf .utf8, true⟩, ⟨.utf .utf32, true⟩, ⟨false, true, false⟩, 200, [244, 143, 191, 191], [1114111], .completed, [], []⟩,
  /- utf8_to_utf32.cpp 288 -/ ⟨true, .char, .char32, ⟨.utf .utf8, true⟩, ⟨.utf .utf32, true⟩, ⟨false, true, false⟩, 0, [191], [], .invalid, [[191]], []⟩,
  /- utf8_to_utf32.cpp 299 -/ ⟨true, .char, .char32, ⟨.utf .utf8, true⟩, ⟨.utf .utf32, true⟩, ⟨false, false, true⟩, 200, [32, 241, 128, 128, 225, 128, 192, 32], [32, 65533, 65533, 65533, 32], .completed, [[241, 128, 128], [225, 128], [192]], []⟩,
  /- utf8_to_utf32.cpp 306 -/ ⟨true, .char, .char32, ⟨.utf .utf8, true⟩, ⟨.utf .utf32, true⟩, ⟨false, true, false⟩, 0, [241, 128, 128, 225, 128, 192, 32], [], .invalid, [[241, 128, 128]], []⟩,
  /- utf8_to_utf32.cpp 316 -/ ⟨true, .char, .char32, ⟨.utf .utf8, true⟩, ⟨.utf .utf32, true⟩, ⟨false, false, true⟩, 200, [32, 191, 32], [32, 65533, 32], .completed, [[191]], []⟩,
  /- utf8_to_utf32.cpp 323 -/ ⟨true, .char, .char32, ⟨.utf .utf8, true⟩, ⟨.utf .utf32, true⟩, ⟨false, true, false⟩, 0, [191, 32], [], .invalid, [[191]], []⟩,
  /- utf8_to_utf32.cpp 333 -/ ⟨true, .char, .char32, ⟨.utf .utf8, true⟩, ⟨.utf .utf32, true⟩, ⟨false, false, true⟩, 200, [32, 128, 128, 32], [32, 65533, 65533, 32], .completed, [[128], [128]], []⟩,
  /- utf8_to_utf32.cpp 340 -/ ⟨true, .char, .char32, ⟨.utf .utf8, true⟩, ⟨.utf .utf32, true⟩, ⟨false, true, false⟩, 0, [128, 128, 32], [], .invalid, [[128]], []⟩,
  /- utf8_to_utf32.cpp 350 -/ ⟨true, .char, .char32, ⟨.utf .utf8, true⟩, ⟨.utf .utf32, true⟩, ⟨false, false, true⟩, 200, [32, 193, 191, 32], [32, 65533, 65533, 32], .completed, [[193], [191]], []⟩,
  /- utf8_to_utf32.cpp 357 -/ ⟨true, .char, .char32, ⟨.utf .utf8, true⟩, ⟨.utf .utf32, true⟩, ⟨false, true, false⟩, 0, [193, 191, 32], [], .invalid, [[193]], []⟩,
  /- utf8_to_utf32.cpp 367 -/ ⟨true, .char, .char32, ⟨.utf .utf8, true⟩, ⟨.utf .utf32, true⟩, ⟨false, false, true⟩, 200, [32, 224, 159, 128, 32], [32, 65533, 65533, 65533, 32], .completed, [[224], [159], [128]], []⟩,
  /- utf8_to_utf32.cpp 374 -/ ⟨true, .char, .char32, ⟨.utf .utf8, true⟩, ⟨.utf .utf32, true⟩, ⟨false, true, false⟩, 0, [224, 159, 128, 32], [], .invalid, [[224]], []⟩,
  /- utf8_to_utf32.cpp 384 -/ ⟨true, .char, .char32, ⟨.utf .utf8, true⟩, ⟨.utf .utf32, true⟩, ⟨false, false, true⟩, 200, [32, 193, 191, 128, 32], [32, 65533, 65533, 65533, 32], .completed, [[193], [191], [128]], []⟩] = true := by decide +kernel

set_option maxRecDepth 100000 in
example : allTranscode [
  /- utf8_to_utf32.cpp 391 -/ ⟨true, .char, .char32, ⟨.utf .utf8, true⟩, ⟨.utf .utf32, true⟩, ⟨false, true, false⟩, 0, [193, 191, 128, 32], [], .invalid, [[193]], []⟩,
  /- utf8_to_utf32.cpp 401 -/ ⟨true, .char, .char32, ⟨.utf .utf8, true⟩, ⟨.utf .utf32, true⟩, ⟨false, false, true⟩, 200, [32, 224, 159, 128, 128, 32], [32, 65533, 65533, 65533, 65533, 32], .completed, [[224], [159], [128], [128]], []⟩,
  /- utf8_to_utf32.cpp 408 -/ ⟨true, .char, .char32, ⟨.utf .utf8, true⟩, ⟨.utf .utf32, true⟩, ⟨false, true, false⟩, 0, [224, 159, 128, 128, 32], [], .invalid, [[224]], []⟩,
  /- utf8_to_utf32.cpp 418 -/ ⟨true, .char, .char32, ⟨.utf .utf8, true⟩, ⟨.utf .utf32, true⟩, ⟨false, false, true⟩, 200, [32, 240, 143, 191, 191, 32], [32, 65533, 65533, 65533, 65533, 32], .completed, [[240], [143], [191], [191]], []⟩,
  /- utf8_to_utf32.cpp 425 -/ ⟨true, .char, .char32, ⟨.utf .utf8, true⟩, ⟨.utf .utf32, true⟩, ⟨false, true, false⟩, 0, [240, 143, 191, 191, 32], [], .invalid, [[240]], []⟩,
  /- utf8_to_utf32.cpp 435 -/ ⟨true, .char, .char32, ⟨.utf .utf8, true⟩, ⟨.utf .utf32, true⟩, ⟨false, false, true⟩, 200, [32, 240, 143, 191, 191, 128, 32], [32, 65533, 65533, 65533, 65533, 65533, 32], .completed, [[240], [143], [191], [191], [128]], []⟩,
  /- utf8_to_utf32.cpp 442 -/ ⟨true, .char, .char32, ⟨.utf .utf8, true⟩, ⟨.utf .utf32, true⟩, ⟨false, true, false⟩, 0, [240, 143, 191, 191, 128, 32], [], .invalid, [[240]], []⟩,
  /- utf8_to_utf32.cpp 452 -/ ⟨true, .char, .char32, ⟨.utf .utf8, true⟩, ⟨.utf .utf32, true⟩, ⟨false, false, true⟩, 200, [32, 244, 191, 191, 191, 32], [32, 65533, 65533, 65533, 65533, 32], .completed, [[244], [191], [191], [191]], []⟩,
  /- utf8_to_utf32.cpp 459 -/ ⟨true, .char, .char32, ⟨.utf .utf8, true⟩, ⟨.utf .utf32, true⟩, ⟨false, true, false⟩, 0, [244, 191, 191, 191, 32], [], .invalid, [[244]], []⟩,
  /- utf8_to_utf32.cpp 468 -/ ⟨true, .char, .char32, ⟨.utf .utf8, true⟩, ⟨.utf .utf32, true⟩, ⟨false, false, true⟩, 200, [32, 244, 144, 128, 128, 32], [32, 65533, 65533, 65533, 65533, 32], .completed, [[244], [144], [128], [128]], []⟩,
  /- utf8_to_utf32.cpp 475 -/ ⟨true, .char, .char32, ⟨.utf .utf8, true⟩, ⟨.utf .utf32, true⟩, ⟨false, true, false⟩, 0, [244, 144, 128, 128, 32], [], .invalid, [[244]], []⟩,
  /- utf8_to_utf32.cpp 484 -/ ⟨true, .char, .char32, ⟨.utf .utf8, true⟩, ⟨.utf .utf32, true⟩, ⟨false, false, true⟩, 200, [32, 245, 128, 128, 128, 32], [32, 65533, 65533, 65533, 65533, 32], .completed, [[245], [128], [128], [128]], []⟩,
  /- utf8_to_utf32.cpp 491 -/ ⟨true, .char, .char32, ⟨.utf .utf8, true⟩, ⟨.utf .utf32, true⟩, ⟨false, true, false⟩, 0, [245, 128, 128, 128, 32], [], .invalid, [[245]], []⟩,
  /- utf8_to_utf32.cpp 500 -/ ⟨true, .char, .char32, ⟨.utf .utf8, true⟩, ⟨.utf .utf32, true⟩, ⟨false, false, true⟩, 200, [32, 246, 128, 128, 128, 32], [32, 65533, 65533, 65533, 65533, 32], .completed, [[246], [128], [128], [128]], []⟩,
  /- utf8_to_utf32.cpp 507 -/ ⟨true, .char, .char32, ⟨.utf .utf8, true⟩, ⟨.utf .utf32, true⟩, ⟨false, true, false⟩, 0, [246, 128, 128, 128, 32], [], .invalid, [[246]], []⟩,
  /- utf8_to_utf32.cpp 516 -/ ⟨true, .char, .char32, ⟨.utf .utf8, true⟩, ⟨.utf .utf32, true⟩, ⟨false, false, true⟩, 200, [32, 247, 128, 128, 128, 32], [32, 65533, 65533, 65533, 65533, 32], .completed, [[247], [128], [128], [128]], []⟩,
  /- utf8_to_utf32.cpp 523 -/ ⟨true, .char, .char32, ⟨.utf .utf8, true⟩, ⟨.utf .utf32, true⟩, ⟨false, true, false⟩, 0, [247, 128, 128, 128, 32], [], .invalid, [[247]], []⟩,
  /- utf8_to_utf32.cpp 532 -/ ⟨true, .char, .char32, ⟨.utf .utf8, true⟩, ⟨.utf .utf32, true⟩, ⟨false, false, true⟩, 200, [32, 248, 128, 128, 128, 32], [32, 65533, 65533, 65533, 65533, 32], .completed, [[248], [128], [128], [128]], []⟩,
  /- utf8_to_utf32.cpp 539 -/ ⟨true, .char, .char32, ⟨.utf .utf8, true⟩, ⟨.utf .utf32, true⟩, ⟨false, true, false⟩, 0, [248, 128, 128, 128, 32], [], .invalid, [[248]], []⟩,
  /- utf8_to_utf32.cpp 548 -/ ⟨true, .char, .char32, ⟨.utf .utf8, true⟩, ⟨.utf .utf32, true⟩, ⟨false, false, true⟩, 200, [32, 249, 128, 128, 128, 32], [32, 65533, 65533, 65533, 65533, 32], .completed, [[249], [128], [128], [128]], []⟩,
  /- utf8_to_utf32.cpp 555 -/ ⟨true, .char, .char32, ⟨.utf .utf8, true⟩, ⟨.utf .utf32, true⟩, ⟨false, true, false⟩, 0, [249, 128, 128, 128, 32], [], .invalid, [[249]], []⟩,
  /- utf8_to_utf32.cpp 564 -/ ⟨true, .char, .char32, ⟨.utf .utf8, true⟩, ⟨.utf .utf32, true⟩, ⟨false, false, true⟩, 200, [32, 250, 128, 128, 128, 32], [32, 65533, 65533, 65533, 65533, 32], .completed, [[250], [128], [128], [128]], []⟩,
  /- utf8_to_utf32.cpp 571 -/ ⟨true, .char, .char32, ⟨.utf .utf8, true⟩, ⟨.utf .utf32, true⟩, ⟨false, true, false⟩, 0, [249, 128, 128, 128, 32], [], .invalid, [[249]], []⟩,
  /- utf8_to_utf32.cpp 580 -/ ⟨true, .char, .char32, ⟨.utf .utf8, true⟩, ⟨.utf .utf32, true⟩, ⟨false, false, true⟩, 200, [32, 251, 128, 128, 128, 32], [32, 65533, 65533, 65533, 65533, 32], .completed, [[251], [128], [128], [128]], []⟩,
  /- utf8_to_utf32.cpp 587 -/ ⟨true, .char, .char32, ⟨.utf .utf8, true⟩, ⟨.utf .utf32, true⟩, ⟨false, true, false⟩, 0, [251, 128, 128, 128, 32], [], .invalid, [[251]], []⟩,
  /- utf8_to_utf32.cpp 596 -/ ⟨true, .char, .char32, ⟨.utf .utf8, true⟩, ⟨.utf .utf32, true⟩, ⟨false, false, true⟩, 200, [32, 252, 128, 128, 128, 32], [32, 65533, 65533, 65533, 65533, 32], .completed, [[252], [128], [128], [128]], []⟩,
  /- utf8_to_utf32.cpp 603 -/ ⟨true, .char, .char32, ⟨.utf .utf8, true⟩, ⟨.utf .utf32, true⟩, ⟨false, true, false⟩, 0, [252, 128, 128, 128, 32], [], .invalid, [[252]], []⟩,
  /- utf8_to_utf32.cpp 612 -/ ⟨true, .char, .char32, ⟨.utf .utf8, true⟩, ⟨.utf .utf32, true⟩, ⟨false, false, true⟩, 200, [32, 253, 128, 128, 128, 32], [32, 65533, 65533, 65533, 65533, 32], .completed, [[253], [128], [128], [128]], []⟩,
  /- utf8_to_utf32.cpp 619 -/ ⟨true, .char, .char32, ⟨.utf .utf8, true⟩, ⟨.utf .utf32, true⟩, ⟨false, true, false⟩, 0, [253, 128, 128, 128, 32], [], .invalid, [[253]], []⟩,
  /- utf8_to_utf32.cpp 628 -/ ⟨true, .char, .char32, ⟨.utf .utf8, true⟩, ⟨.utf .utf32, true⟩, ⟨false, false, true⟩, 200, [32, 254, 128, 128, 128, 32], [32, 65533, 65533, 65533, 65533, 32], .completed, [[254], [128], [128], [128]], []⟩,
  /- utf8_to_utf32.cpp 635 -/ ⟨true, .char, .char32, ⟨.utf .utf8, true⟩, ⟨.utf .utf32, true⟩, ⟨false, true, false⟩, 0, [254, 128, 128, 128, 32], [], .invalid, [[254]], []⟩,
  /- utf8_to_utf32.cpp 644 -/ ⟨true, .char, .char32, ⟨.utf .utf8, true⟩, ⟨.utf .utf32, true⟩, ⟨false, false, true⟩, 200, [32, 255, 128, 128, 128, 32], [32, 65533, 65533, 65533, 65533, 32], .completed, [[255], [128], [128], [128]], []⟩,
  /- utf8_to_utf32.cpp 651 -/ ⟨true, .char, .char32, ⟨.utf .utf8, true⟩, ⟨.utf .utf32, true⟩, ⟨false, true, false⟩, 0, [255, 128, 128, 128, 32], [], .invalid, [[255]], []⟩,
  /- utf8_to_utf32.cpp 660 -/ ⟨true, .char, .char32, ⟨.utf .utf8, true⟩, ⟨.utf .utf32, true⟩, ⟨false, false, true⟩, 200, [32, 255, 128, 128, 32], [32, 65533, 65533, 65533, 32], .completed, [[255], [128], [128]], []⟩,
  /- utf8_to_utf32.cpp 669 -/ ⟨true, .char, .char32, ⟨.utf .utf8, true⟩, ⟨.utf .utf32, true⟩, ⟨false, false, true⟩, 200, [32, 245, 144, 128, 128, 128, 128, 32], [32, 65533, 65533, 65533, 65533, 65533, 65533, 32], .completed, [[245], [144], [128], [128], [128], [128]], []⟩,
  /- utf8_to_utf32.cpp 676 -/ ⟨true, .char, .char32, ⟨.utf .utf8, true⟩, ⟨.utf .utf32, true⟩, ⟨false, true, false⟩, 0, [245, 144, 128, 128, 128, 128, 32], [], .invalid, [[245]], []⟩,
  /- utf8_to_utf32.cpp 686 -/ ⟨true, .char, .char32, ⟨.utf .utf8, true⟩, ⟨.utf .utf32, true⟩, ⟨false, false, true⟩, 200, [32, 194, 32], [32, 65533, 32], .completed, [[194]], []⟩,
  /- utf8_to_utf32.cpp 693 -/ ⟨true, .char, .char32, ⟨.utf .utf8, true⟩, ⟨.utf .utf32, true⟩, ⟨false, true, false⟩, 0, [194, 32], [], .invalid, [[194]], []⟩,
  /- utf8_to_utf32.cpp 702 -/ ⟨true, .char, .char32, ⟨.utf .utf8, true⟩, ⟨.utf .utf32, true⟩, ⟨false, false, true⟩, 200, [32, 224, 32], [32, 65533, 32], .completed, [[224]], []⟩,
  /- utf8_to_utf32.cpp 709 -/ ⟨true, .char, .char32, ⟨.utf .utf8, true⟩, ⟨.utf .utf32, true⟩, ⟨false, true, false⟩, 0, [224, 32], [], .invalid, [[224]], []⟩] = true := by decide +kernel

set_option maxRecDepth 100000 in
example : allTranscode [
  /- utf8_to_utf32.cpp 719 -/ ⟨true, .char, .char32, ⟨.utf .utf8, true⟩, ⟨.utf .utf32, true⟩, ⟨false, false, true⟩, 200, [32, 224, 160, 32], [32, 65533, 32], .completed, [[224, 160]], []⟩,
  /- utf8_to_utf32.cpp 726 -/ ⟨true, .char, .char32, ⟨.utf .utf8, true⟩, ⟨.utf .utf32, true⟩, ⟨false, true, false⟩, 0, [224, 160, 32], [], .invalid, [[224, 160]], []⟩,
  /- utf8_to_utf32.cpp 736 -/ ⟨true, .char, .char32, ⟨.utf .utf8, true⟩, ⟨.utf .utf32, true⟩, ⟨false, false, true⟩, 200, [32, 225, 32], [32, 65533, 32], .completed, [[225]], []⟩,
  /- utf8_to_utf32.cpp 743 -/ ⟨true, .char, .char32, ⟨.utf .utf8, true⟩, ⟨.utf .utf32, true⟩, ⟨false, true, false⟩, 0, [225, 32], [], .invalid, [[225]], []⟩,
  /- utf8_to_utf32.cpp 753 -/ ⟨true, .char, .char32, ⟨.utf .utf8, true⟩, ⟨.utf .utf32, true⟩, ⟨false, false, true⟩, 200, [32, 240, 144, 191, 32], [32, 65533, 32], .completed, [[240, 144, 191]], []⟩,
  /- utf8_to_utf32.cpp 760 -/ ⟨true, .char, .char32, ⟨.utf .utf8, true⟩, ⟨.utf .utf32, true⟩, ⟨false, true, false⟩, 0, [240, 144, 191, 32], [], .invalid, [[240, 144, 191]], []⟩,
  /- utf8_to_utf32.cpp 770 -/ ⟨true, .char, .char32, ⟨.utf .utf8, true⟩, ⟨.utf .utf32, true⟩, ⟨false, false, true⟩, 200, [32, 241, 32], [32, 65533, 32], .completed, [[241]], []⟩,
  /- utf8_to_utf32.cpp 777 -/ ⟨true, .char, .char32, ⟨.utf .utf8, true⟩, ⟨.utf .utf32, true⟩, ⟨false, true, false⟩, 0, [241, 32], [], .invalid, [[241]], []⟩,
  /- utf8_to_utf32.cpp 787 -/ ⟨true, .char, .char32, ⟨.utf .utf8, true⟩, ⟨.utf .utf32, true⟩, ⟨false, false, true⟩, 200, [32, 241, 129, 32], [32, 65533, 32], .completed, [[241, 129]], []⟩,
  /- utf8_to_utf32.cpp 794 -/ ⟨true, .char, .char32, ⟨.utf .utf8, true⟩, ⟨.utf .utf32, true⟩, ⟨false, true, false⟩, 0, [241, 129, 32], [], .invalid, [[241, 129]], []⟩,
  /- utf8_to_utf32.cpp 804 -/ ⟨true, .char, .char32, ⟨.utf .utf8, true⟩, ⟨.utf .utf32, true⟩, ⟨false, false, true⟩, 200, [32, 241, 129, 129, 32], [32, 65533, 32], .completed, [[241, 129, 129]], []⟩,
  /- utf8_to_utf32.cpp 811 -/ ⟨true, .char, .char32, ⟨.utf .utf8, true⟩, ⟨.utf .utf32, true⟩, ⟨false, true, false⟩, 0, [241, 129, 129, 32], [], .invalid, [[241, 129, 129]], []⟩,
  /- utf8_to_utf32.cpp 822 -/ ⟨true, .char, .char32, ⟨.utf .utf8, true⟩, ⟨.utf .utf32, true⟩, ⟨false, false, true⟩, 200, [32, 237, 160, 128, 32], [32, 65533, 65533, 65533, 32], .completed, [[237], [160], [128]], []⟩,
  /- utf8_to_utf32.cpp 829 -/ ⟨true, .char, .char32, ⟨.utf .utf8, true⟩, ⟨.utf .utf32, true⟩, ⟨false, true, false⟩, 0, [237, 160, 128, 32], [], .invalid, [[237]], []⟩,
  /- utf8_to_utf32.cpp 838 -/ ⟨true, .char, .char32, ⟨.utf .utf8, true⟩, ⟨.utf .utf32, true⟩, ⟨false, false, true⟩, 200, [32, 237, 175, 191, 32], [32, 65533, 65533, 65533, 32], .completed, [[237], [175], [191]], []⟩,
  /- utf8_to_utf32.cpp 845 -/ ⟨true, .char, .char32, ⟨.utf .utf8, true⟩, ⟨.utf .utf32, true⟩, ⟨false, true, false⟩, 0, [237, 175, 191, 32], [], .invalid, [[237]], []⟩,
  /- utf8_to_utf32.cpp 854 -/ ⟨true, .char, .char32, ⟨.utf .utf8, true⟩, ⟨.utf .utf32, true⟩, ⟨false, false, true⟩, 200, [32, 237, 176, 128, 32], [32, 65533, 65533, 65533, 32], .completed, [[237], [176], [128]], []⟩,
  /- utf8_to_utf32.cpp 861 -/ ⟨true, .char, .char32, ⟨.utf .utf8, true⟩, ⟨.utf .utf32, true⟩, ⟨false, true, false⟩, 0, [237, 176, 128, 32], [], .invalid, [[237]], []⟩,
  /- utf8_to_utf32.cpp 870 -/ ⟨true, .char, .char32, ⟨.utf .utf8, true⟩, ⟨.utf .utf32, true⟩, ⟨false, false, true⟩, 200, [32, 237, 176, 128, 32], [32, 65533, 65533, 65533, 32], .completed, [[237], [176], [128]], []⟩,
  /- utf8_to_utf32.cpp 877 -/ ⟨true, .char, .char32, ⟨.utf .utf8, true⟩, ⟨.utf .utf32, true⟩, ⟨false, true, false⟩, 0, [237, 176, 128, 32], [], .invalid, [[237]], []⟩,
  /- utf8_to_utf32.cpp 886 -/ ⟨true, .char, .char32, ⟨.utf .utf8, true⟩, ⟨.utf .utf32, true⟩, ⟨false, false, true⟩, 200, [32, 237, 160, 128, 32], [32, 65533, 65533, 65533, 32], .completed, [[237], [160], [128]], []⟩,
  /- utf8_to_utf32.cpp 893 -/ ⟨true, .char, .char32, ⟨.utf .utf8, true⟩, ⟨.utf .utf32, true⟩, ⟨false, true, false⟩, 0, [237, 160, 128, 32], [], .invalid, [[237]], []⟩,
  /- utf8_to_utf32.cpp 902 -/ ⟨true, .char, .char32, ⟨.utf .utf8, true⟩, ⟨.utf .utf32, true⟩, ⟨false, false, true⟩, 200, [32, 237, 175, 191, 32], [32, 65533, 65533, 65533, 32], .completed, [[237], [175], [191]], []⟩,
  /- utf8_to_utf32.cpp 909 -/ ⟨true, .char, .char32, ⟨.utf .utf8, true⟩, ⟨.utf .utf32, true⟩, ⟨false, true, false⟩, 0, [237, 175, 191, 32], [], .invalid, [[237]], []⟩,
  /- utf8_to_utf32.cpp 918 -/ ⟨true, .char, .char32, ⟨.utf .utf8, true⟩, ⟨.utf .utf32, true⟩, ⟨false, false, true⟩, 200, [32, 237, 176, 128, 32], [32, 65533, 65533, 65533, 32], .completed, [[237], [176], [128]], []⟩,
  /- utf8_to_utf32.cpp 925 -/ ⟨true, .char, .char32, ⟨.utf .utf8, true⟩, ⟨.utf .utf32, true⟩, ⟨false, true, false⟩, 0, [237, 176, 128, 32], [], .invalid, [[237]], []⟩,
  /- utf8_to_utf32.cpp 934 -/ ⟨true, .char, .char32, ⟨.utf .utf8, true⟩, ⟨.utf .utf32, true⟩, ⟨false, false, true⟩, 200, [32, 237, 191, 191, 32], [32, 65533, 65533, 65533, 32], .completed, [[237], [191], [191]], []⟩,
  /- utf8_to_utf32.cpp 941 -/ ⟨true, .char, .char32, ⟨.utf .utf8, true⟩, ⟨.utf .utf32, true⟩, ⟨false, true, false⟩, 0, [237, 191, 191, 32], [], .invalid, [[237]], []⟩,
  /- utf8_to_utf32.cpp 951 -/ ⟨true, .char, .char32, ⟨.utf .utf8, true⟩, ⟨.utf .utf32, true⟩, ⟨false, false, true⟩, 200, [32, 237, 160, 32], [32, 65533, 65533, 32], .completed, [[237], [160]], []⟩,
  /- utf8_to_utf32.cpp 958 -/ ⟨true, .char, .char32, ⟨.utf .utf8, true⟩, ⟨.utf .utf32, true⟩, ⟨false, true, false⟩, 0, [237, 160, 32], [], .invalid, [[237]], []⟩,
  /- utf8_to_utf32.cpp 967 -/ ⟨true, .char, .char32, ⟨.utf .utf8, true⟩, ⟨.utf .utf32, true⟩, ⟨false, false, true⟩, 200, [32, 237, 191, 32], [32, 65533, 65533, 32], .completed, [[237], [191]], []⟩,
  /- utf8_to_utf32.cpp 974 -/ ⟨true, .char, .char32, ⟨.utf .utf8, true⟩, ⟨.utf .utf32, true⟩, ⟨false, true, false⟩, 0, [237, 191, 32], [], .invalid, [[237]], []⟩,
  /- utf8_to_utf32.cpp 987 -/ ⟨true, .char, .char32, ⟨.utf .utf8, true⟩, ⟨.utf .utf32, true⟩, ⟨true, false, false⟩, 200, [237, 160], [65533], .completed, [[237, 160]], []⟩,
  /- utf8_to_utf32.cpp 994 -/ ⟨true, .char, .char32, ⟨.utf .utf8, true⟩, ⟨.utf .utf32, true⟩, ⟨true, true, false⟩, 0, [237, 160], [], .invalid, [[237, 160]], []⟩,
  /- utf8_to_utf32.cpp 1004 -/ ⟨true, .char, .char32, ⟨.utf .utf8, true⟩, ⟨.utf .utf32, true⟩, ⟨true, false, false⟩, 200, [237, 191], [65533], .completed, [[237, 191]], []⟩,
  /- utf8_to_utf32.cpp 1011 -/ ⟨true, .char, .char32, ⟨.utf .utf8, true⟩, ⟨.utf .utf32, true⟩, ⟨true, true, false⟩, 0, [237, 191], [], .invalid, [[237, 191]], []⟩,
  /- utf8_to_utf32.cpp 1022 -/ ⟨true, .char, .char32, ⟨.utf .utf8, true⟩, ⟨.utf .utf32, true⟩, ⟨false, false, true⟩, 200, [32, 237, 159, 32], [32, 65533, 32], .completed, [[237, 159]], []⟩,
  /- utf8_to_utf32.cpp 1029 -/ ⟨true, .char, .char32, ⟨.utf .utf8, true⟩, ⟨.utf .utf32, true⟩, ⟨false, true, false⟩, 0, [237, 159], [], .invalid, [[237, 159]], []⟩,
  /- utf8_to_utf32.cpp 1044 -/ ⟨true, .char, .char32, ⟨.utf .utf8, true⟩, ⟨.utf .utf32, true⟩, ⟨false, true, false⟩, 0, [191], [], .invalid, [[191]], []⟩,
  /- utf8_to_utf32.cpp 1052 -/ ⟨true, .char, .char32, ⟨.utf .utf8, true⟩, ⟨.utf .utf32, true⟩, ⟨false, true, false⟩, 0, [95, 191], [], .insufficient, [], []⟩] = true := by decide +kernel

set_option maxRecDepth 100000 in
example : allTranscode [
  /- utf8.cpp 30 -/ ⟨false, .char8, .char8, ⟨.utf .utf8, true⟩, ⟨.utf .utf8, true⟩, ⟨false, false, false⟩, 200, [97, 98], [97, 98], .completed, [], []⟩,
  /- utf8.cpp 37 -/ ⟨false, .char8, .char8, ⟨.utf .utf8, true⟩, ⟨.utf .utf8, true⟩, ⟨false, false, false⟩, 200, [194, 128], [194, 128], .completed, [], []⟩,
  /- utf8.cpp 44 -/ ⟨false, .char8, .char8, ⟨.utf .utf8, true⟩, ⟨.utf .utf8, true⟩, ⟨false, false, false⟩, 200, [224, 160, 128], [224, 160, 128], .completed, [], []⟩,
  /- utf8.cpp 51 -/ ⟨false, .char8, .char8, ⟨.utf .utf8, true⟩, ⟨.utf .utf8, true⟩, ⟨false, false, false⟩, 200, [237, 159, 191], [237, 159, 191], .completed, [], []⟩,
  /- utf8.cpp 58 -/ ⟨false, .char8, .char8, ⟨.utf .utf8, true⟩, ⟨.utf .utf8, true⟩, ⟨false, false, false⟩, 200, [240, 144, 128, 128], [240, 144, 128, 128], .completed, [], []⟩,
  /- utf8.cpp 65 -/ ⟨false, .char8, .char8, ⟨.utf .utf8, true⟩, ⟨.utf .utf8, true⟩, ⟨false, false, false⟩, 200, [244, 143, 191, 191], [244, 143, 191, 191], .completed, [], []⟩,
  /- utf8.cpp 72 -/ ⟨false, .char8, .char8, ⟨.utf .utf8, true⟩, ⟨.utf .utf8, true⟩, ⟨false, false, false⟩, 200, [97, 98, 194, 128, 224, 160, 128, 237, 159, 191, 238, 128, 128, 240, 144, 128, 128, 244, 143, 191, 191], [97, 98, 194, 128, 224, 160, 128, 237, 159, 191, 238, 128, 128, 240, 144, 128, 128, 244, 143, 191, 191], .completed, [], []⟩,
  /- utf8.cpp 76 -/ ⟨false, .char8, .char8, ⟨.utf .utf8, true⟩, ⟨.utf .utf8, true⟩, ⟨false, false, false⟩, 2, [97, 98, 99], [97, 98], .insufficient, [], []⟩,
  /- utf8.cpp 81 -/ ⟨false, .char8, .char8, ⟨.utf .utf8, true⟩, ⟨.utf .utf8, true⟩, ⟨false, false, false⟩, 0, [240, 144, 128, 128], [], .insufficient, [], []⟩,
  /- utf8.cpp 87 -/ ⟨false, .char8, .char8, ⟨.utf .utf8, true⟩, ⟨.utf .utf8, true⟩, ⟨false, false, false⟩, 3, [240, 144, 128, 128], [], .insufficient, [], []⟩,
  /- utf8.cpp 92 -/ ⟨false, .char8, .char8, ⟨.utf .utf8, true⟩, ⟨.utf .utf8, true⟩, ⟨false, false, false⟩, 2, [240, 144, 128, 128], [], .insufficient, [], []⟩,
  /- utf8.cpp 97 -/ ⟨false, .char8, .char8, ⟨.utf .utf8, true⟩, ⟨.utf .utf8, true⟩, ⟨false, false, false⟩, 1, [240, 144, 128, 128], [], .insufficient, [], []⟩,
  /- utf8.cpp 103 -/ ⟨false, .char8, .char8, ⟨.utf .utf8, true⟩, ⟨.utf .utf8, true⟩, ⟨false, false, false⟩, 2, [238, 128, 128], [], .insufficient, [], []⟩,
  /- utf8.cpp 108 -/ ⟨false, .char8, .char8, ⟨.utf .utf8, true⟩, ⟨.utf .utf8, true⟩, ⟨false, false, false⟩, 1, [238, 128, 128], [], .insufficient, [], []⟩,
  /- utf8.cpp 114 -/ ⟨false, .char8, .char8, ⟨.utf .utf8, true⟩, ⟨.utf .utf8, true⟩, ⟨false, false, false⟩, 1, [194, 128], [], .insufficient, [], []⟩,
  /- utf8.cpp 163 -/ ⟨false, .char, .char, ⟨.utf .utf8, true⟩, ⟨.utf .utf8, true⟩, ⟨true, false, false⟩, 200, [237, 160, 128, 237, 175, 191, 237, 176, 128, 237, 191, 191, 237, 160, 128, 95], [237, 160, 128, 237, 175, 191, 237, 176, 128, 237, 191, 191, 237, 160, 128, 95], .completed, [], []⟩,
  /- utf8.cpp 171 -/ ⟨false, .char, .char, ⟨.utf .utf8, true⟩, ⟨.utf .utf8, true⟩, ⟨false, false, false⟩, 0, [104, 101, 108, 108, 111], [], .insufficient, [], []⟩,
  /- utf8.cpp 181 -/ ⟨true, .char8, .char8, ⟨.utf .utf8, true⟩, ⟨.utf .utf8, true⟩, ⟨false, false, false⟩, 200, [97, 98], [97, 98], .completed, [], []⟩,
  /- utf8.cpp 188 -/ ⟨true, .char8, .char8, ⟨.utf .utf8, true⟩, ⟨.utf .utf8, true⟩, ⟨false, false, false⟩, 200, [194, 128], [194, 128], .completed, [], []⟩,
  /- utf8.cpp 195 -/ ⟨true, .char8, .char8, ⟨.utf .utf8, true⟩, ⟨.utf .utf8, true⟩, ⟨false, false, false⟩, 200, [224, 160, 128], [224, 160, 128], .completed, [], []⟩,
  /- utf8.cpp 202 -/ ⟨true, .char8, .char8, ⟨.utf .utf8, true⟩, ⟨.utf .utf8, true⟩, ⟨false, false, false⟩, 200, [237, 159, 191], [237, 159, 191], .completed, [], []⟩,
  /- utf8.cpp 209 -/ ⟨true, .char8, .char8, ⟨.utf .utf8, true⟩, ⟨.utf .utf8, true⟩, ⟨false, false, false⟩, 200, [240, 144, 128, 128], [240, 144, 128, 128], .completed, [], []⟩,
  /- utf8.cpp 216 -/ ⟨true, .char8, .char8, ⟨.utf .utf8, true⟩, ⟨.utf .utf8, true⟩, ⟨false, false, false⟩, 200, [244, 143, 191, 191], [244, 143, 191, 191], .completed, [], []⟩,
  /- utf8.cpp 247 -/ ⟨true, .char8, .char, ⟨.utf .utf8, true⟩, ⟨.utf .utf8, true⟩, ⟨false, false, false⟩, 3, [97, 98, 244, 143, 191, 191], [97, 98], .insufficient, [], []⟩,
  /- utf8.cpp 255 -/ ⟨true, .char8, .char, ⟨.utf .utf8, true⟩, ⟨.utf .utf8, true⟩, ⟨false, false, false⟩, 0, [97, 98, 244, 143, 191, 191], [], .insufficient, [], []⟩,
  /- utf8.cpp 266 -/ ⟨true, .char8, .char8, ⟨.utf .utf8, true⟩, ⟨.utf .utf8, true⟩, ⟨false, true, false⟩, 200, [194, 128], [194, 128], .completed, [], []⟩,
  /- utf8.cpp 274 -/ ⟨true, .char8, .char8, ⟨.utf .utf8, true⟩, ⟨.utf .utf8, true⟩, ⟨false, true, false⟩, 200, [224, 160, 128], [224, 160, 128], .completed, [], []⟩,
  /- utf8.cpp 282 -/ ⟨true, .char8, .char8, ⟨.utf .utf8, true⟩, ⟨.utf .utf8, true⟩, ⟨false, true, false⟩, 200, [237, 159, 191], [237, 159, 191], .completed, [], []⟩,
  /- utf8.cpp 290 -/ ⟨true, .char8, .char8, ⟨.utf .utf8, true⟩, ⟨.utf .utf8, true⟩, ⟨false, true, false⟩, 200, [240, 144, 128, 128], [240, 144, 128, 128], .completed, [], []⟩,
  /- utf8.cpp 298 -/ ⟨true, .char8, .char8, ⟨.utf .utf8, true⟩, ⟨.utf .utf8, true⟩, ⟨false, true, false⟩, 200, [244, 143, 191, 191], [244, 143, 191, 191], .completed, [], []⟩,
  /- utf8.cpp 315 -/ ⟨true, .char, .char, ⟨.utf .utf8, true⟩, ⟨.utf .utf8, true⟩, ⟨true, false, false⟩, 200, [237, 160, 128], [237, 160, 128], .completed, [], []⟩,
  /- utf8.cpp 322 -/ ⟨true, .char, .char, ⟨.utf .utf8, true⟩, ⟨.utf .utf8, true⟩, ⟨true, false, false⟩, 200, [237, 175, 191], [237, 175, 191], .completed, [], []⟩,
  /- utf8.cpp 329 -/ ⟨true, .char, .char, ⟨.utf .utf8, true⟩, ⟨.utf .utf8, true⟩, ⟨true, false, false⟩, 200, [237, 176, 128], [237, 176, 128], .completed, [], []⟩,
  /- utf8.cpp 336 -/ ⟨true, .char, .char, ⟨.utf .utf8, true⟩, ⟨.utf .utf8, true⟩, ⟨true, false, false⟩, 200, [237, 191, 191], [237, 191, 191], .completed, [], []⟩,
  /- utf8.cpp 348 -/ ⟨true, .char, .char, ⟨.utf .utf8, true⟩, ⟨.utf .utf8, true⟩, ⟨true, true, true⟩, 200, [237, 160, 128], [237, 160, 128], .completed, [], []⟩,
  /- utf8.cpp 355 -/ ⟨true, .char, .char, ⟨.utf .utf8, true⟩, ⟨.utf .utf8, true⟩, ⟨true, true, true⟩, 200, [237, 175, 191], [237, 175, 191], .completed, [], []⟩,
  /- utf8.cpp 362 -/ ⟨true, .char, .char, ⟨.utf .utf8, true⟩, ⟨.utf .utf8, true⟩, ⟨true, true, true⟩, 200, [237, 176, 128], [237, 176, 128], .completed, [], []⟩,
  /- utf8.cpp 369 -/ ⟨true, .char, .char, ⟨.utf .utf8, true⟩, ⟨.utf .utf8, true⟩, ⟨true, true, true⟩, 200, [237, 191, 191], [237, 191, 191], .completed, [], []⟩,
  /- utf8.cpp 405 -/ ⟨true, .char, .char8, ⟨.utf .utf8, true⟩, ⟨.utf .utf8, true⟩, ⟨false, true, false⟩, 0, [191], [], .invalid, [[191]], []⟩,
  /- utf8.cpp 416 -/ ⟨true, .char, .char8, ⟨.utf .utf8, true⟩, ⟨.utf .utf8, true⟩, ⟨false, false, true⟩, 200, [32, 241, 128, 128, 225, 128, 192, 32], [32, 239, 191, 189, 239, 191, 189, 239, 191, 189, 32], .completed, [[241, 128, 128], [225, 128], [192]], []⟩] = true := by decide +kernel

set_option maxRecDepth 100000 in
example : allTranscode [
  /- utf8.cpp 423 -/ ⟨true, .char, .char8, ⟨.utf .utf8, true⟩, ⟨.utf .utf8, true⟩, ⟨false, true, false⟩, 0, [241, 128, 128, 225, 128, 192, 32], [], .invalid, [[241, 128, 128]], []⟩,
  /- utf8.cpp 433 -/ ⟨true, .char, .char8, ⟨.utf .utf8, true⟩, ⟨.utf .utf8, true⟩, ⟨false, false, true⟩, 200, [32, 191, 32], [32, 239, 191, 189, 32], .completed, [[191]], []⟩,
  /- utf8.cpp 440 -/ ⟨true, .char, .char8, ⟨.utf .utf8, true⟩, ⟨.utf .utf8, true⟩, ⟨false, true, false⟩, 0, [191, 32], [], .invalid, [[191]], []⟩,
  /- utf8.cpp 450 -/ ⟨true, .char, .char8, ⟨.utf .utf8, true⟩, ⟨.utf .utf8, true⟩, ⟨false, false, true⟩, 200, [32, 128, 128, 32], [32, 239, 191, 189, 239, 191, 189, 32], .completed, [[128], [128]], []⟩,
  /- utf8.cpp 457 -/ ⟨true, .char, .char8, ⟨.utf .utf8, true⟩, ⟨.utf .utf8, true⟩, ⟨false, true, false⟩, 0, [128, 128, 32], [], .invalid, [[128]], []⟩,
  /- utf8.cpp 467 -/ ⟨true, .char, .char8, ⟨.utf .utf8, true⟩, ⟨.utf .utf8, true⟩, ⟨false, false, true⟩, 200, [32, 193, 191, 32], [32, 239, 191, 189, 239, 191, 189, 32], .completed, [[193], [191]], []⟩,
  /- utf8.cpp 474 -/ ⟨true, .char, .char8, ⟨.utf .utf8, true⟩, ⟨.utf .utf8, true⟩, ⟨false, true, false⟩, 0, [193, 191, 32], [], .invalid, [[193]], []⟩,
  /- utf8.cpp 484 -/ ⟨true, .char, .char8, ⟨.utf .utf8, true⟩, ⟨.utf .utf8, true⟩, ⟨false, false, true⟩, 200, [32, 224, 159, 128, 32], [32, 239, 191, 189, 239, 191, 189, 239, 191, 189, 32], .completed, [[224], [159], [128]], []⟩,
  /- utf8.cpp 491 -/ ⟨true, .char, .char8, ⟨.utf .utf8, true⟩, ⟨.utf .utf8, true⟩, ⟨false, true, false⟩, 0, [224, 159, 128, 32], [], .invalid, [[224]], []⟩,
  /- utf8.cpp 501 -/ ⟨true, .char, .char8, ⟨.utf .utf8, true⟩, ⟨.utf .utf8, true⟩, ⟨false, false, true⟩, 200, [32, 193, 191, 128, 32], [32, 239, 191, 189, 239, 191, 189, 239, 191, 189, 32], .completed, [[193], [191], [128]], []⟩,
  /- utf8.cpp 508 -/ ⟨true, .char, .char8, ⟨.utf .utf8, true⟩, ⟨.utf .utf8, true⟩, ⟨false, true, false⟩, 0, [193, 191, 128, 32], [], .invalid, [[193]], []⟩,
  /- utf8.cpp 518 -/ ⟨true, .char, .char8, ⟨.utf .utf8, true⟩, ⟨.utf .utf8, true⟩, ⟨false, false, true⟩, 200, [32, 224, 159, 128, 128, 32], [32, 239, 191, 189, 239, 191, 189, 239, 191, 189, 239, 191, 189, 32], .completed, [[224], [159], [128], [128]], []⟩,
  /- utf8.cpp 525 -/ ⟨true, .char, .char8, ⟨.utf .utf8, true⟩, ⟨.utf .utf8, true⟩, ⟨false, true, false⟩, 0, [224, 159, 128, 128, 32], [], .invalid, [[224]], []⟩,
  /- utf8.cpp 535 -/ ⟨true, .char, .char8, ⟨.utf .utf8, true⟩, ⟨.utf .utf8, true⟩, ⟨false, false, true⟩, 200, [32, 240, 143, 191, 191, 32], [32, 239, 191, 189, 239, 191, 189, 239, 191, 189, 239, 191, 189, 32], .completed, [[240], [143], [191], [191]], []⟩,
  /- utf8.cpp 542 -/ ⟨true, .char, .char8, ⟨.utf .utf8, true⟩, ⟨.utf .utf8, true⟩, ⟨false, true, false⟩, 0, [240, 143, 191, 191, 32], [], .invalid, [[240]], []⟩,
  /- utf8.cpp 552 -/ ⟨true, .char, .char8, ⟨.utf .utf8, true⟩, ⟨.utf .utf8, true⟩, ⟨false, false, true⟩, 200, [32, 240, 143, 191, 191, 128, 32], [32, 239, 191, 189, 239, 191, 189, 239, 191, 189, 239, 191, 189, 239, 191, 189, 32], .completed, [[240], [143], [191], [191], [128]], []⟩,
  /- utf8.cpp 559 -/ ⟨true, .char, .char8, ⟨.utf .utf8, true⟩, ⟨.utf .utf8, true⟩, ⟨false, true, false⟩, 0, [240, 143, 191, 191, 128, 32], [], .invalid, [[240]], []⟩,
  /- utf8.cpp 569 -/ ⟨true, .char, .char8, ⟨.utf .utf8, true⟩, ⟨.utf .utf8, true⟩, ⟨false, false, true⟩, 200, [32, 244, 191, 191, 191, 32], [32, 239, 191, 189, 239, 191, 189, 239, 191, 189, 239, 191, 189, 32], .completed, [[244], [191], [191], [191]], []⟩,
  /- utf8.cpp 576 -/ ⟨true, .char, .char8, ⟨.utf .utf8, true⟩, ⟨.utf .utf8, true⟩, ⟨false, true, false⟩, 0, [244, 191, 191, 191, 32], [], .invalid, [[244]], []⟩,
  /- utf8.cpp 585 -/ ⟨true, .char, .char8, ⟨.utf .utf8, true⟩, ⟨.utf .utf8, true⟩, ⟨false, false, true⟩, 200, [32, 244, 144, 128, 128, 32], [32, 239, 191, 189, 239, 191, 189, 239, 191, 189, 239, 191, 189, 32], .completed, [[244], [144], [128], [128]], []⟩,
  /- utf8.cpp 592 -/ ⟨true, .char, .char8, ⟨.utf .utf8, true⟩, ⟨.utf .utf8, true⟩, ⟨false, true, false⟩, 0, [244, 144, 128, 128, 32], [], .invalid, [[244]], []⟩,
  /- utf8.cpp 601 -/ ⟨true, .char, .char8, ⟨.utf .utf8, true⟩, ⟨.utf .utf8, true⟩, ⟨false, false, true⟩, 200, [32, 245, 128, 128, 128, 32], [32, 239, 191, 189, 239, 191, 189, 239, 191, 189, 239, 191, 189, 32], .completed, [[245], [128], [128], [128]], []⟩,
  /- utf8.cpp 608 -/ ⟨true, .char, .char8, ⟨.utf .utf8, true⟩, ⟨.utf .utf8, true⟩, ⟨false, true, false⟩, 0, [245, 128, 128, 128, 32], [], .invalid, [[245]], []⟩,
  /- utf8.cpp 617 -/ ⟨true, .char, .char8, ⟨.utf .utf8, true⟩, ⟨.utf .utf8, true⟩, ⟨false, false, true⟩, 200, [32, 246, 128, 128, 128, 32], [32, 239, 191, 189, 239, 191, 189, 239, 191, 189, 239, 191, 189, 32], .completed, [[246], [128], [128], [128]], []⟩,
  /- utf8.cpp 624 -/ ⟨true, .char, .char8, ⟨.utf .utf8, true⟩, ⟨.utf .utf8, true⟩, ⟨false, true, false⟩, 0, [246, 128, 128, 128, 32], [], .invalid, [[246]], []⟩,
  /- utf8.cpp 633 -/ ⟨true, .char, .char8, ⟨.utf .utf8, true⟩, ⟨.utf .utf8, true⟩, ⟨false, false, true⟩, 200, [32, 247, 128, 128, 128, 32], [32, 239, 191, 189, 239, 191, 189, 239, 191, 189, 239, 191, 189, 32], .completed, [[247], [128], [128], [128]], []⟩,
  /- utf8.cpp 640 -/ ⟨true, .char, .char8, ⟨.utf .utf8, true⟩, ⟨.utf .utf8, true⟩, ⟨false, true, false⟩, 0, [247, 128, 128, 128, 32], [], .invalid, [[247]], []⟩,
  /- utf8.cpp 649 -/ ⟨true, .char, .char8, ⟨.utf .utf8, true⟩, ⟨.utf .utf8, true⟩, ⟨false, false, true⟩, 200, [32, 248, 128, 128, 128, 32], [32, 239, 191, 189, 239, 191, 189, 239, 191, 189, 239, 191, 189, 32], .completed, [[248], [128], [128], [128]], []⟩,
  /- utf8.cpp 656 -/ ⟨true, .char, .char8, ⟨.utf .utf8, true⟩, ⟨.utf .utf8, true⟩, ⟨false, true, false⟩, 0, [248, 128, 128, 128, 32], [], .invalid, [[248]], []⟩,
  /- utf8.cpp 665 -/ ⟨true, .char, .char8, ⟨.utf .utf8, true⟩, ⟨.utf .utf8, true⟩, ⟨false, false, true⟩, 200, [32, 249, 128, 128, 128, 32], [32, 239, 191, 189, 239, 191, 189, 239, 191, 189, 239, 191, 189, 32], .completed, [[249], [128], [128], [128]], []⟩,
  /- utf8.cpp 672 -/ ⟨true, .char, .char8, ⟨.utf .utf8, true⟩, ⟨.utf .utf8, true⟩, ⟨false, true, false⟩, 0, [249, 128, 128, 128, 32], [], .invalid, [[249]], []⟩,
  /- utf8.cpp 681 -/ ⟨true, .char, .char8, ⟨.utf .utf8, true⟩, ⟨.utf .utf8, true⟩, ⟨false, false, true⟩, 200, [32, 250, 128, 128, 128, 32], [32, 239, 191, 189, 239, 191, 189, 239, 191, 189, 239, 191, 189, 32], .completed, [[250], [128], [128], [128]], []⟩,
  /- utf8.cpp 688 -/ ⟨true, .char, .char8, ⟨.utf .utf8, true⟩, ⟨.utf .utf8, true⟩, ⟨false, true, false⟩, 0, [249, 128, 128, 128, 32], [], .invalid, [[249]], []⟩,
  /- utf8.cpp 697 -/ ⟨true, .char, .char8, ⟨.utf .utf8, true⟩, ⟨.utf .utf8, true⟩, ⟨false, false, true⟩, 200, [32, 251, 128, 128, 128, 32], [32, 239, 191, 189, 239, 191, 189, 239, 191, 189, 239, 191, 189, 32], .completed, [[251], [128], [128], [128]], []⟩,
  /- utf8.cpp 704 -/ ⟨true, .char, .char8, ⟨.utf .utf8, true⟩, ⟨.utf .utf8, true⟩, ⟨false, true, false⟩, 0, [251, 128, 128, 128, 32], [], .invalid, [[251]], []⟩,
  /- utf8.cpp 713 -/ ⟨true, .char, .char8, ⟨.utf .utf8, true⟩, ⟨.utf .utf8, true⟩, ⟨false, false, true⟩, 200, [32, 252, 128, 128, 128, 32], [32, 239, 191, 189, 239, 191, 189, 239, 191, 189, 239, 191, 189, 32], .completed, [[252], [128], [128], [128]], []⟩,
  /- utf8.cpp 720 -/ ⟨true, .char, .char8, ⟨.utf .utf8, true⟩, ⟨.utf .utf8, true⟩, ⟨false, true, false⟩, 0, [252, 128, 128, 128, 32], [], .invalid, [[252]], []⟩,
  /- utf8.cpp 729 -/ ⟨true, .char, .char8, ⟨.utf .utf8, true⟩, ⟨.utf .utf8, true⟩, ⟨false, false, true⟩, 200, [32, 253, 128, 128, 128, 32], [32, 239, 191, 189, 239, 191, 189, 239, 191, 189, 239, 191, 189, 32], .completed, [[253], [128], [128], [128]], []⟩,
  /- utf8.cpp 736 -/ ⟨true, .char, .char8, ⟨.utf .utf8, true⟩, ⟨.utf .utf8, true⟩, ⟨false, true, false⟩, 0, [253, 128, 128, 128, 32], [], .invalid, [[253]], []⟩,
  /- utf8.cpp 745 -/ ⟨true, .char, .char8, ⟨.utf .utf8, true⟩, ⟨.utf .utf8, true⟩, ⟨false, false, true⟩, 200, [32, 254, 128, 128, 128, 32], [32, 239, 191, 189, 239, 191, 189, 239, 191, 189, 239, 191, 189, 32], .completed, [[254], [128], [128], [128]], []⟩] = true := by decide +kernel

set_option maxRecDepth 100000 in
example : allTranscode [
  /- utf8.cpp 752 -/ ⟨true, .char, .char8, ⟨.utf .utf8, true⟩, ⟨.utf .utf8, true⟩, ⟨false, true, false⟩, 0, [254, 128, 128, 128, 32], [], .invalid, [[254]], []⟩,
  /- utf8.cpp 761 -/ ⟨true, .char, .char8, ⟨.utf .utf8, true⟩, ⟨.utf .utf8, true⟩, ⟨false, false, true⟩, 200, [32, 255, 128, 128, 128, 32], [32, 239, 191, 189, 239, 191, 189, 239, 191, 189, 239, 191, 189, 32], .completed, [[255], [128], [128], [128]], []⟩,
  /- utf8.cpp 768 -/ ⟨true, .char, .char8, ⟨.utf .utf8, true⟩, ⟨.utf .utf8, true⟩, ⟨false, true, false⟩, 0, [255, 128, 128, 128, 32], [], .invalid, [[255]], []⟩,
  /- utf8.cpp 777 -/ ⟨true, .char, .char8, ⟨.utf .utf8, true⟩, ⟨.utf .utf8, true⟩, ⟨false, false, true⟩, 200, [32, 255, 128, 128, 32], [32, 239, 191, 189, 239, 191, 189, 239, 191, 189, 32], .completed, [[255], [128], [128]], []⟩,
  /- utf8.cpp 786 -/ ⟨true, .char, .char8, ⟨.utf .utf8, true⟩, ⟨.utf .utf8, true⟩, ⟨false, false, true⟩, 200, [32, 245, 144, 128, 128, 128, 128, 32], [32, 239, 191, 189, 239, 191, 189, 239, 191, 189, 239, 191, 189, 239, 191, 189, 239, 191, 189, 32], .completed, [[245], [144], [128], [128], [128], [128]], []⟩,
  /- utf8.cpp 793 -/ ⟨true, .char, .char8, ⟨.utf .utf8, true⟩, ⟨.utf .utf8, true⟩, ⟨false, true, false⟩, 0, [245, 144, 128, 128, 128, 128, 32], [], .invalid, [[245]], []⟩,
  /- utf8.cpp 803 -/ ⟨true, .char, .char8, ⟨.utf .utf8, true⟩, ⟨.utf .utf8, true⟩, ⟨false, false, true⟩, 200, [32, 194, 32], [32, 239, 191, 189, 32], .completed, [[194]], []⟩,
  /- utf8.cpp 810 -/ ⟨true, .char, .char8, ⟨.utf .utf8, true⟩, ⟨.utf .utf8, true⟩, ⟨false, true, false⟩, 0, [194, 32], [], .invalid, [[194]], []⟩,
  /- utf8.cpp 819 -/ ⟨true, .char, .char8, ⟨.utf .utf8, true⟩, ⟨.utf .utf8, true⟩, ⟨false, false, true⟩, 200, [32, 224, 32], [32, 239, 191, 189, 32], .completed, [[224]], []⟩,
  /- utf8.cpp 826 -/ ⟨true, .char, .char8, ⟨.utf .utf8, true⟩, ⟨.utf .utf8, true⟩, ⟨false, true, false⟩, 0, [224, 32], [], .invalid, [[224]], []⟩,
  /- utf8.cpp 836 -/ ⟨true, .char, .char8, ⟨.utf .utf8, true⟩, ⟨.utf .utf8, true⟩, ⟨false, false, true⟩, 200, [32, 224, 160, 32], [32, 239, 191, 189, 32], .completed, [[224, 160]], []⟩,
  /- utf8.cpp 843 -/ ⟨true, .char, .char8, ⟨.utf .utf8, true⟩, ⟨.utf .utf8, true⟩, ⟨false, true, false⟩, 0, [224, 160, 32], [], .invalid, [[224, 160]], []⟩,
  /- utf8.cpp 853 -/ ⟨true, .char, .char8, ⟨.utf .utf8, true⟩, ⟨.utf .utf8, true⟩, ⟨false, false, true⟩, 200, [32, 225, 32], [32, 239, 191, 189, 32], .completed, [[225]], []⟩,
  /- utf8.cpp 860 -/ ⟨true, .char, .char8, ⟨.utf .utf8, true⟩, ⟨.utf .utf8, true⟩, ⟨false, true, false⟩, 0, [225, 32], [], .invalid, [[225]], []⟩,
  /- utf8.cpp 870 -/ ⟨true, .char, .char8, ⟨.utf .utf8, true⟩, ⟨.utf .utf8, true⟩, ⟨false, false, true⟩, 200, [32, 240, 144, 191, 32], [32, 239, 191, 189, 32], .completed, [[240, 144, 191]], []⟩,
  /- utf8.cpp 877 -/ ⟨true, .char, .char8, ⟨.utf .utf8, true⟩, ⟨.utf .utf8, true⟩, ⟨false, true, false⟩, 0, [240, 144, 191, 32], [], .invalid, [[240, 144, 191]], []⟩,
  /- utf8.cpp 887 -/ ⟨true, .char, .char8, ⟨.utf .utf8, true⟩, ⟨.utf .utf8, true⟩, ⟨false, false, true⟩, 200, [32, 241, 32], [32, 239, 191, 189, 32], .completed, [[241]], []⟩,
  /- utf8.cpp 894 -/ ⟨true, .char, .char8, ⟨.utf .utf8, true⟩, ⟨.utf .utf8, true⟩, ⟨false, true, false⟩, 0, [241, 32], [], .invalid, [[241]], []⟩,
  /- utf8.cpp 904 -/ ⟨true, .char, .char8, ⟨.utf .utf8, true⟩, ⟨.utf .utf8, true⟩, ⟨false, false, true⟩, 200, [32, 241, 129, 32], [32, 239, 191, 189, 32], .completed, [[241, 129]], []⟩,
  /- utf8.cpp 911 -/ ⟨true, .char, .char8, ⟨.utf .utf8, true⟩, ⟨.utf .utf8, true⟩, ⟨false, true, false⟩, 0, [241, 129, 32], [], .invalid, [[241, 129]], []⟩,
  /- utf8.cpp 921 -/ ⟨true, .char, .char8, ⟨.utf .utf8, true⟩, ⟨.utf .utf8, true⟩, ⟨false, false, true⟩, 200, [32, 241, 129, 129, 32], [32, 239, 191, 189, 32], .completed, [[241, 129, 129]], []⟩,
  /- utf8.cpp 928 -/ ⟨true, .char, .char8, ⟨.utf .utf8, true⟩, ⟨.utf .utf8, true⟩, ⟨false, true, false⟩, 0, [241, 129, 129, 32], [], .invalid, [[241, 129, 129]], []⟩,
  /- utf8.cpp 939 -/ ⟨true, .char, .char8, ⟨.utf .utf8, true⟩, ⟨.utf .utf8, true⟩, ⟨false, false, true⟩, 200, [32, 237, 160, 128, 32], [32, 239, 191, 189, 239, 191, 189, 239, 191, 189, 32], .completed, [[237], [160], [128]], []⟩,
  /- utf8.cpp 946 -/ ⟨true, .char, .char8, ⟨.utf .utf8, true⟩, ⟨.utf .utf8, true⟩, ⟨false, true, false⟩, 0, [237, 160, 128, 32], [], .invalid, [[237]], []⟩,
  /- utf8.cpp 955 -/ ⟨true, .char, .char8, ⟨.utf .utf8, true⟩, ⟨.utf .utf8, true⟩, ⟨false, false, true⟩, 200, [32, 237, 175, 191, 32], [32, 239, 191, 189, 239, 191, 189, 239, 191, 189, 32], .completed, [[237], [175], [191]], []⟩,
  /- utf8.cpp 962 -/ ⟨true, .char, .char8, ⟨.utf .utf8, true⟩, ⟨.utf .utf8, true⟩, ⟨false, true, false⟩, 0, [237, 175, 191, 32], [], .invalid, [[237]], []⟩,
  /- utf8.cpp 971 -/ ⟨true, .char, .char8, ⟨.utf .utf8, true⟩, ⟨.utf .utf8, true⟩, ⟨false, false, true⟩, 200, [32, 237, 176, 128, 32], [32, 239, 191, 189, 239, 191, 189, 239, 191, 189, 32], .completed, [[237], [176], [128]], []⟩,
  /- utf8.cpp 978 -/ ⟨true, .char, .char8, ⟨.utf .utf8, true⟩, ⟨.utf .utf8, true⟩, ⟨false, true, false⟩, 0, [237, 176, 128, 32], [], .invalid, [[237]], []⟩,
  /- utf8.cpp 987 -/ ⟨true, .char, .char8, ⟨.utf .utf8, true⟩, ⟨.utf .utf8, true⟩, ⟨false, false, true⟩, 200, [32, 237, 176, 128, 32], [32, 239, 191, 189, 239, 191, 189, 239, 191, 189, 32], .completed, [[237], [176], [128]], []⟩,
  /- utf8.cpp 994 -/ ⟨true, .char, .char8, ⟨.utf .utf8, true⟩, ⟨.utf .utf8, true⟩, ⟨false, true, false⟩, 0, [237, 176, 128, 32], [], .invalid, [[237]], []⟩,
  /- utf8.cpp 1003 -/ ⟨true, .char, .char8, ⟨.utf .utf8, true⟩, ⟨.utf .utf8, true⟩, ⟨false, false, true⟩, 200, [32, 237, 160, 128, 32], [32, 239, 191, 189, 239, 191, 189, 239, 191, 189, 32], .completed, [[237], [160], [128]], []⟩,
  /- utf8.cpp 1010 -/ ⟨true, .char, .char8, ⟨.utf .utf8, true⟩, ⟨.utf .utf8, true⟩, ⟨false, true, false⟩, 0, [237, 160, 128, 32], [], .invalid, [[237]], []⟩,
  /- utf8.cpp 1019 -/ ⟨true, .char, .char8, ⟨.utf .utf8, true⟩, ⟨.utf .utf8, true⟩, ⟨false, false, true⟩, 200, [32, 237, 175, 191, 32], [32, 239, 191, 189, 239, 191, 189, 239, 191, 189, 32], .completed, [[237], [175], [191]], []⟩,
  /- utf8.cpp 1026 -/ ⟨true, .char, .char8, ⟨.utf .utf8, true⟩, ⟨.utf .utf8, true⟩, ⟨false, true, false⟩, 0, [237, 175, 191, 32], [], .invalid, [[237]], []⟩,
  /- utf8.cpp 1035 -/ ⟨true, .char, .char8, ⟨.utf .utf8, true⟩, ⟨.utf .utf8, true⟩, ⟨false, false, true⟩, 200, [32, 237, 176, 128, 32], [32, 239, 191, 189, 239, 191, 189, 239, 191, 189, 32], .completed, [[237], [176], [128]], []⟩,
  /- utf8.cpp 1042 -/ ⟨true, .char, .char8, ⟨.utf .utf8, true⟩, ⟨.utf .utf8, true⟩, ⟨false, true, false⟩, 0, [237, 176, 128, 32], [], .invalid, [[237]], []⟩,
  /- utf8.cpp 1051 -/ ⟨true, .char, .char8, ⟨.utf .utf8, true⟩, ⟨.utf .utf8, true⟩, ⟨false, false, true⟩, 200, [32, 237, 191, 191, 32], [32, 239, 191, 189, 239, 191, 189, 239, 191, 189, 32], .completed, [[237], [191], [191]], []⟩,
  /- utf8.cpp 1058 -/ ⟨true, .char, .char8, ⟨.utf .utf8, true⟩, ⟨.utf .utf8, true⟩, ⟨false, true, false⟩, 0, [237, 191, 191, 32], [], .invalid, [[237]], []⟩,
  /- utf8.cpp 1068 -/ ⟨true, .char, .char8, ⟨.utf .utf8, true⟩, ⟨.utf .utf8, true⟩, ⟨false, false, true⟩, 200, [32, 237, 160, 32], [32, 239, 191, 189, 239, 191, 189, 32], .completed, [[237], [160]], []⟩,
  /- utf8.cpp 1075 -/ ⟨true, .char, .char8, ⟨.utf .utf8, true⟩, ⟨.utf .utf8, true⟩, ⟨false, true, false⟩, 0, [237, 160, 32], [], .invalid, [[237]], []⟩] = true := by decide +kernel

set_option maxRecDepth 100000 in
example : allTranscode [
  /- utf8.cpp 1084 -/ ⟨true, .char, .char8, ⟨.utf .utf8, true⟩, ⟨.utf .utf8, true⟩, ⟨false, false, true⟩, 200, [32, 237, 191, 32], [32, 239, 191, 189, 239, 191, 189, 32], .completed, [[237], [191]], []⟩,
  /- utf8.cpp 1091 -/ ⟨true, .char, .char8, ⟨.utf .utf8, true⟩, ⟨.utf .utf8, true⟩, ⟨false, true, false⟩, 0, [237, 191, 32], [], .invalid, [[237]], []⟩,
  /- utf8.cpp 1104 -/ ⟨true, .char, .char8, ⟨.utf .utf8, true⟩, ⟨.utf .utf8, true⟩, ⟨true, false, false⟩, 200, [237, 160], [239, 191, 189], .completed, [[237, 160]], []⟩,
  /- utf8.cpp 1111 -/ ⟨true, .char, .char8, ⟨.utf .utf8, true⟩, ⟨.utf .utf8, true⟩, ⟨true, true, false⟩, 0, [237, 160], [], .invalid, [[237, 160]], []⟩,
  /- utf8.cpp 1121 -/ ⟨true, .char, .char8, ⟨.utf .utf8, true⟩, ⟨.utf .utf8, true⟩, ⟨true, false, false⟩, 200, [237, 191], [239, 191, 189], .completed, [[237, 191]], []⟩,
  /- utf8.cpp 1128 -/ ⟨true, .char, .char8, ⟨.utf .utf8, true⟩, ⟨.utf .utf8, true⟩, ⟨true, true, false⟩, 0, [237, 191], [], .invalid, [[237, 191]], []⟩,
  /- utf8.cpp 1139 -/ ⟨true, .char, .char8, ⟨.utf .utf8, true⟩, ⟨.utf .utf8, true⟩, ⟨false, false, true⟩, 200, [32, 237, 159, 32], [32, 239, 191, 189, 32], .completed, [[237, 159]], []⟩,
  /- utf8.cpp 1146 -/ ⟨true, .char, .char8, ⟨.utf .utf8, true⟩, ⟨.utf .utf8, true⟩, ⟨false, true, false⟩, 0, [237, 159], [], .invalid, [[237, 159]], []⟩,
  /- utf8.cpp 1162 -/ ⟨true, .char, .char8, ⟨.utf .utf8, true⟩, ⟨.utf .utf8, true⟩, ⟨false, true, false⟩, 0, [191], [], .invalid, [[191]], []⟩,
  /- utf8.cpp 1170 -/ ⟨true, .char, .char8, ⟨.utf .utf8, true⟩, ⟨.utf .utf8, true⟩, ⟨false, true, false⟩, 0, [95, 191], [], .insufficient, [], []⟩,
  /- utf16.cpp 23 -/ ⟨false, .char16, .char16, ⟨.utf .utf16, true⟩, ⟨.utf .utf16, true⟩, ⟨false, false, false⟩, 200, [], [], .completed, [], []⟩,
  /- utf16.cpp 30 -/ ⟨false, .char16, .char16, ⟨.utf .utf16, true⟩, ⟨.utf .utf16, true⟩, ⟨false, false, false⟩, 200, [97, 98], [97, 98], .completed, [], []⟩,
  /- utf16.cpp 37 -/ ⟨false, .char16, .char16, ⟨.utf .utf16, true⟩, ⟨.utf .utf16, true⟩, ⟨false, false, false⟩, 200, [128], [128], .completed, [], []⟩,
  /- utf16.cpp 44 -/ ⟨false, .char16, .char16, ⟨.utf .utf16, true⟩, ⟨.utf .utf16, true⟩, ⟨false, false, false⟩, 200, [2048], [2048], .completed, [], []⟩,
  /- utf16.cpp 51 -/ ⟨false, .char16, .char16, ⟨.utf .utf16, true⟩, ⟨.utf .utf16, true⟩, ⟨false, false, false⟩, 200, [55295], [55295], .completed, [], []⟩,
  /- utf16.cpp 58 -/ ⟨false, .char16, .char16, ⟨.utf .utf16, true⟩, ⟨.utf .utf16, true⟩, ⟨false, false, false⟩, 200, [55296, 56320], [55296, 56320], .completed, [], []⟩,
  /- utf16.cpp 65 -/ ⟨false, .char16, .char16, ⟨.utf .utf16, true⟩, ⟨.utf .utf16, true⟩, ⟨false, false, false⟩, 200, [56319, 57343], [56319, 57343], .completed, [], []⟩,
  /- utf16.cpp 72 -/ ⟨false, .char16, .char16, ⟨.utf .utf16, true⟩, ⟨.utf .utf16, true⟩, ⟨false, false, false⟩, 200, [97, 98, 128, 2048, 55295, 57344, 55296, 56320, 56319, 57343], [97, 98, 128, 2048, 55295, 57344, 55296, 56320, 56319, 57343], .completed, [], []⟩,
  /- utf16.cpp 76 -/ ⟨false, .char16, .char16, ⟨.utf .utf16, true⟩, ⟨.utf .utf16, true⟩, ⟨false, false, false⟩, 2, [97, 98, 99], [97, 98], .insufficient, [], []⟩,
  /- utf16.cpp 81 -/ ⟨false, .char16, .char16, ⟨.utf .utf16, true⟩, ⟨.utf .utf16, true⟩, ⟨false, false, false⟩, 1, [55296, 56320], [], .insufficient, [], []⟩,
  /- utf16.cpp 86 -/ ⟨false, .char16, .char16, ⟨.utf .utf16, true⟩, ⟨.utf .utf16, true⟩, ⟨false, false, false⟩, 0, [55296, 56320], [], .insufficient, [], []⟩,
  /- utf16.cpp 106 -/ ⟨false, .char16, .char16, ⟨.utf .utf16, true⟩, ⟨.utf .utf16, true⟩, ⟨true, false, false⟩, 200, [55296], [55296], .completed, [], []⟩,
  /- utf16.cpp 113 -/ ⟨false, .char16, .char16, ⟨.utf .utf16, true⟩, ⟨.utf .utf16, true⟩, ⟨true, false, false⟩, 200, [56319], [56319], .completed, [], []⟩,
  /- utf16.cpp 120 -/ ⟨false, .char16, .char16, ⟨.utf .utf16, true⟩, ⟨.utf .utf16, true⟩, ⟨true, false, false⟩, 200, [56320], [56320], .completed, [], []⟩,
  /- utf16.cpp 127 -/ ⟨false, .char16, .char16, ⟨.utf .utf16, true⟩, ⟨.utf .utf16, true⟩, ⟨true, false, false⟩, 200, [57343], [57343], .completed, [], []⟩,
  /- utf16.cpp 134 -/ ⟨false, .char16, .char16, ⟨.utf .utf16, true⟩, ⟨.utf .utf16, true⟩, ⟨true, false, false⟩, 200, [57343, 55296, 95], [57343, 55296, 95], .completed, [], []⟩,
  /- utf16.cpp 143 -/ ⟨false, .char16, .char16, ⟨.utf .utf16, true⟩, ⟨.utf .utf16, true⟩, ⟨true, false, false⟩, 3, [97, 98, 55296, 56320], [97, 98], .insufficient, [], []⟩,
  /- utf16.cpp 149 -/ ⟨false, .char16, .char16, ⟨.utf .utf16, true⟩, ⟨.utf .utf16, true⟩, ⟨true, false, false⟩, 1, [57343, 55296, 95], [57343], .insufficient, [], []⟩,
  /- utf16.cpp 159 -/ ⟨true, .char16, .char16, ⟨.utf .utf16, true⟩, ⟨.utf .utf16, true⟩, ⟨false, false, false⟩, 200, [97, 98], [97, 98], .completed, [], []⟩,
  /- utf16.cpp 166 -/ ⟨true, .char16, .char16, ⟨.utf .utf16, true⟩, ⟨.utf .utf16, true⟩, ⟨false, false, false⟩, 200, [128], [128], .completed, [], []⟩,
  /- utf16.cpp 173 -/ ⟨true, .char16, .char16, ⟨.utf .utf16, true⟩, ⟨.utf .utf16, true⟩, ⟨false, false, false⟩, 200, [2048], [2048], .completed, [], []⟩,
  /- utf16.cpp 180 -/ ⟨true, .char16, .char16, ⟨.utf .utf16, true⟩, ⟨.utf .utf16, true⟩, ⟨false, false, false⟩, 200, [55295], [55295], .completed, [], []⟩,
  /- utf16.cpp 187 -/ ⟨true, .char16, .char16, ⟨.utf .utf16, true⟩, ⟨.utf .utf16, true⟩, ⟨false, false, false⟩, 200, [55296, 56320], [55296, 56320], .completed, [], []⟩,
  /- utf16.cpp 194 -/ ⟨true, .char16, .char16, ⟨.utf .utf16, true⟩, ⟨.utf .utf16, true⟩, ⟨false, false, false⟩, 200, [56319, 57343], [56319, 57343], .completed, [], []⟩,
  /- utf16.cpp 201 -/ ⟨true, .char16, .char16, ⟨.utf .utf16, true⟩, ⟨.utf .utf16, true⟩, ⟨false, false, false⟩, 200, [97, 98, 128, 2048, 55295, 55296, 56320, 56319, 57343], [97, 98, 128, 2048, 55295, 55296, 56320, 56319, 57343], .completed, [], []⟩,
  /- utf16.cpp 205 -/ ⟨true, .char16, .char16, ⟨.utf .utf16, true⟩, ⟨.utf .utf16, true⟩, ⟨false, false, false⟩, 2, [97, 98, 99], [97, 98], .insufficient, [], []⟩,
  /- utf16.cpp 210 -/ ⟨true, .char16, .char16, ⟨.utf .utf16, true⟩, ⟨.utf .utf16, true⟩, ⟨false, false, false⟩, 1, [55296, 56320], [], .insufficient, [], []⟩,
  /- utf16.cpp 215 -/ ⟨true, .char16, .char16, ⟨.utf .utf16, true⟩, ⟨.utf .utf16, true⟩, ⟨false, false, false⟩, 0, [55296, 56320], [], .insufficient, [], []⟩,
  /- utf16.cpp 247 -/ ⟨true, .char16, .char16, ⟨.utf .utf16, true⟩, ⟨.utf .utf16, true⟩, ⟨true, true, true⟩, 200, [55296], [55296], .completed, [], []⟩,
  /- utf16.cpp 254 -/ ⟨true, .char16, .char16, ⟨.utf .utf16, true⟩, ⟨.utf .utf16, true⟩, ⟨true, true, true⟩, 200, [56319], [56319], .completed, [], []⟩] = true := by decide +kernel

set_option maxRecDepth 100000 in
example : allTranscode [
  /- utf16.cpp 261 -/ ⟨true, .char16, .char16, ⟨.utf .utf16, true⟩, ⟨.utf .utf16, true⟩, ⟨true, true, true⟩, 200, [56320], [56320], .completed, [], []⟩,
  /- utf16.cpp 268 -/ ⟨true, .char16, .char16, ⟨.utf .utf16, true⟩, ⟨.utf .utf16, true⟩, ⟨true, true, true⟩, 200, [57343], [57343], .completed, [], []⟩,
  /- utf16.cpp 275 -/ ⟨true, .char16, .char16, ⟨.utf .utf16, true⟩, ⟨.utf .utf16, true⟩, ⟨true, true, true⟩, 200, [57343, 55296, 95], [57343, 55296, 95], .completed, [], []⟩,
  /- utf16.cpp 293 -/ ⟨true, .char16, .char16, ⟨.utf .utf16, true⟩, ⟨.utf .utf16, true⟩, ⟨false, false, false⟩, 200, [97, 98, 99, 95, 55296, 95, 100, 101, 102], [97, 98, 99, 95, 65533, 95, 100, 101, 102], .completed, [[55296]], []⟩,
  /- utf16.cpp 299 -/ ⟨true, .char16, .char16, ⟨.utf .utf16, true⟩, ⟨.utf .utf16, true⟩, ⟨false, false, false⟩, 200, [97, 98, 99, 95, 56319, 95, 100, 101, 102], [97, 98, 99, 95, 65533, 95, 100, 101, 102], .completed, [[56319]], []⟩,
  /- utf16.cpp 305 -/ ⟨true, .char16, .char16, ⟨.utf .utf16, true⟩, ⟨.utf .utf16, true⟩, ⟨false, true, false⟩, 200, [97, 98, 99, 95, 55296, 95, 100, 101, 102], [97, 98, 99, 95], .invalid, [[55296]], []⟩,
  /- utf16.cpp 312 -/ ⟨true, .char16, .char16, ⟨.utf .utf16, true⟩, ⟨.utf .utf16, true⟩, ⟨false, true, false⟩, 4, [97, 98, 99, 95, 55296, 95, 100, 101, 102], [97, 98, 99, 95], .invalid, [[55296]], []⟩,
  /- utf16.cpp 322 -/ ⟨true, .char16, .char16, ⟨.utf .utf16, true⟩, ⟨.utf .utf16, true⟩, ⟨false, false, false⟩, 200, [97, 98, 99, 95, 56320, 95, 100, 101, 102], [97, 98, 99, 95, 65533, 95, 100, 101, 102], .completed, [[56320]], []⟩,
  /- utf16.cpp 328 -/ ⟨true, .char16, .char16, ⟨.utf .utf16, true⟩, ⟨.utf .utf16, true⟩, ⟨false, false, false⟩, 200, [97, 98, 99, 95, 57343, 95, 100, 101, 102], [97, 98, 99, 95, 65533, 95, 100, 101, 102], .completed, [[57343]], []⟩,
  /- utf16.cpp 334 -/ ⟨true, .char16, .char16, ⟨.utf .utf16, true⟩, ⟨.utf .utf16, true⟩, ⟨false, true, false⟩, 200, [97, 98, 99, 95, 56320, 95, 100, 101, 102], [97, 98, 99, 95], .invalid, [[56320]], []⟩,
  /- utf16.cpp 341 -/ ⟨true, .char16, .char16, ⟨.utf .utf16, true⟩, ⟨.utf .utf16, true⟩, ⟨false, true, false⟩, 4, [97, 98, 99, 95, 56320, 95, 100, 101, 102], [97, 98, 99, 95], .invalid, [[56320]], []⟩,
  /- utf16.cpp 351 -/ ⟨true, .char16, .char16, ⟨.utf .utf16, true⟩, ⟨.utf .utf16, true⟩, ⟨false, false, false⟩, 200, [97, 98, 99, 95, 55296, 56319, 95, 100, 101, 102], [97, 98, 99, 95, 65533, 65533, 95, 100, 101, 102], .completed, [[55296], [56319]], []⟩,
  /- utf16.cpp 358 -/ ⟨true, .char16, .char16, ⟨.utf .utf16, true⟩, ⟨.utf .utf16, true⟩, ⟨false, true, false⟩, 200, [97, 98, 99, 95, 55296, 56319, 95, 100, 101, 102], [97, 98, 99, 95], .invalid, [[55296]], []⟩,
  /- utf16.cpp 367 -/ ⟨true, .char16, .char16, ⟨.utf .utf16, true⟩, ⟨.utf .utf16, true⟩, ⟨false, false, false⟩, 200, [97, 98, 99, 95, 56320, 55296, 95, 100, 101, 102], [97, 98, 99, 95, 65533, 65533, 95, 100, 101, 102], .completed, [[56320], [55296]], []⟩,
  /- utf16.cpp 374 -/ ⟨true, .char16, .char16, ⟨.utf .utf16, true⟩, ⟨.utf .utf16, true⟩, ⟨false, true, false⟩, 200, [97, 98, 99, 95, 56320, 55296, 95, 100, 101, 102], [97, 98, 99, 95], .invalid, [[56320]], []⟩,
  /- utf16.cpp 381 -/ ⟨true, .char16, .char16, ⟨.utf .utf16, true⟩, ⟨.utf .utf16, true⟩, ⟨false, true, false⟩, 4, [97, 98, 99, 95, 56320, 55296, 95, 100, 101, 102], [97, 98, 99, 95], .invalid, [[56320]], []⟩,
  /- utf16.cpp 391 -/ ⟨true, .char16, .char16, ⟨.utf .utf16, true⟩, ⟨.utf .utf16, true⟩, ⟨false, false, false⟩, 200, [97, 98, 99, 95, 56320, 95, 100, 101, 102], [97, 98, 99, 95, 65533, 95, 100, 101, 102], .completed, [[56320]], []⟩,
  /- utf16.cpp 397 -/ ⟨true, .char16, .char16, ⟨.utf .utf16, true⟩, ⟨.utf .utf16, true⟩, ⟨false, false, false⟩, 200, [97, 98, 99, 95, 57343, 95, 100, 101, 102], [97, 98, 99, 95, 65533, 95, 100, 101, 102], .completed, [[57343]], []⟩,
  /- utf16.cpp 404 -/ ⟨true, .char16, .char16, ⟨.utf .utf16, true⟩, ⟨.utf .utf16, true⟩, ⟨false, true, false⟩, 200, [97, 98, 99, 95, 56320, 95, 100, 101, 102], [97, 98, 99, 95], .invalid, [[56320]], []⟩,
  /- utf16.cpp 413 -/ ⟨true, .char16, .char16, ⟨.utf .utf16, true⟩, ⟨.utf .utf16, true⟩, ⟨false, true, false⟩, 4, [97, 98, 99, 95, 56320, 95, 100, 101, 102], [97, 98, 99, 95], .invalid, [[56320]], []⟩,
  /- utf32.cpp 22 -/ ⟨false, .char32, .char32, ⟨.utf .utf32, true⟩, ⟨.utf .utf32, true⟩, ⟨false, false, false⟩, 200, [97, 98], [97, 98], .completed, [], []⟩,
  /- utf32.cpp 29 -/ ⟨false, .char32, .char32, ⟨.utf .utf32, true⟩, ⟨.utf .utf32, true⟩, ⟨false, false, false⟩, 200, [128], [128], .completed, [], []⟩,
  /- utf32.cpp 36 -/ ⟨false, .char32, .char32, ⟨.utf .utf32, true⟩, ⟨.utf .utf32, true⟩, ⟨false, false, false⟩, 200, [2048], [2048], .completed, [], []⟩,
  /- utf32.cpp 43 -/ ⟨false, .char32, .char32, ⟨.utf .utf32, true⟩, ⟨.utf .utf32, true⟩, ⟨false, false, false⟩, 200, [55295], [55295], .completed, [], []⟩,
  /- utf32.cpp 50 -/ ⟨false, .char32, .char32, ⟨.utf .utf32, true⟩, ⟨.utf .utf32, true⟩, ⟨false, false, false⟩, 200, [65536], [65536], .completed, [], []⟩,
  /- utf32.cpp 57 -/ ⟨false, .char32, .char32, ⟨.utf .utf32, true⟩, ⟨.utf .utf32, true⟩, ⟨false, false, false⟩, 200, [1114111], [1114111], .completed, [], []⟩,
  /- utf32.cpp 64 -/ ⟨false, .char32, .char32, ⟨.utf .utf32, true⟩, ⟨.utf .utf32, true⟩, ⟨false, false, false⟩, 200, [97, 98, 128, 2048, 55295, 57344, 65536, 1114111], [97, 98, 128, 2048, 55295, 57344, 65536, 1114111], .completed, [], []⟩,
  /- utf32.cpp 68 -/ ⟨false, .char32, .char32, ⟨.utf .utf32, true⟩, ⟨.utf .utf32, true⟩, ⟨false, false, false⟩, 2, [97, 98, 99], [97, 98], .insufficient, [], []⟩,
  /- utf32.cpp 73 -/ ⟨false, .char32, .char32, ⟨.utf .utf32, true⟩, ⟨.utf .utf32, true⟩, ⟨false, false, false⟩, 0, [65536], [], .insufficient, [], []⟩,
  /- utf32.cpp 78 -/ ⟨false, .char32, .char32, ⟨.utf .utf32, true⟩, ⟨.utf .utf32, true⟩, ⟨false, false, false⟩, 0, [97, 98, 99, 65536], [], .insufficient, [], []⟩,
  /- utf32.cpp 90 -/ ⟨false, .char32, .char32, ⟨.utf .utf32, true⟩, ⟨.utf .utf32, true⟩, ⟨true, false, false⟩, 200, [55296], [55296], .completed, [], []⟩,
  /- utf32.cpp 97 -/ ⟨false, .char32, .char32, ⟨.utf .utf32, true⟩, ⟨.utf .utf32, true⟩, ⟨true, false, false⟩, 200, [56319], [56319], .completed, [], []⟩,
  /- utf32.cpp 104 -/ ⟨false, .char32, .char32, ⟨.utf .utf32, true⟩, ⟨.utf .utf32, true⟩, ⟨true, false, false⟩, 200, [56320], [56320], .completed, [], []⟩,
  /- utf32.cpp 111 -/ ⟨false, .char32, .char32, ⟨.utf .utf32, true⟩, ⟨.utf .utf32, true⟩, ⟨true, false, false⟩, 200, [57343], [57343], .completed, [], []⟩,
  /- utf32.cpp 118 -/ ⟨false, .char32, .char32, ⟨.utf .utf32, true⟩, ⟨.utf .utf32, true⟩, ⟨true, false, false⟩, 200, [57343, 55296, 95], [57343, 55296, 95], .completed, [], []⟩,
  /- utf32.cpp 130 -/ ⟨true, .char32, .char32, ⟨.utf .utf32, true⟩, ⟨.utf .utf32, true⟩, ⟨false, false, false⟩, 200, [97, 98], [97, 98], .completed, [], []⟩,
  /- utf32.cpp 137 -/ ⟨true, .char32, .char32, ⟨.utf .utf32, true⟩, ⟨.utf .utf32, true⟩, ⟨false, false, false⟩, 200, [128], [128], .completed, [], []⟩,
  /- utf32.cpp 144 -/ ⟨true, .char32, .char32, ⟨.utf .utf32, true⟩, ⟨.utf .utf32, true⟩, ⟨false, false, false⟩, 200, [2048], [2048], .completed, [], []⟩,
  /- utf32.cpp 151 -/ ⟨true, .char32, .char32, ⟨.utf .utf32, true⟩, ⟨.utf .utf32, true⟩, ⟨false, false, false⟩, 200, [55295], [55295], .completed, [], []⟩,
  /- utf32.cpp 158 -/ ⟨true, .char32, .char32, ⟨.utf .utf32, true⟩, ⟨.utf .utf32, true⟩, ⟨false, false, false⟩, 200, [65536], [65536], .completed, [], []⟩] = true := by decide +kernel

set_option maxRecDepth 100000 in
example : allTranscode [
  /- utf32.cpp 165 -/ ⟨true, .char32, .char32, ⟨.utf .utf32, true⟩, ⟨.utf .utf32, true⟩, ⟨false, false, false⟩, 200, [1114111], [1114111], .completed, [], []⟩,
  /- utf32.cpp 172 -/ ⟨true, .char32, .char32, ⟨.utf .utf32, true⟩, ⟨.utf .utf32, true⟩, ⟨false, false, false⟩, 200, [97, 98, 128, 2048, 55295, 65536, 1114111], [97, 98, 128, 2048, 55295, 65536, 1114111], .completed, [], []⟩,
  /- utf32.cpp 176 -/ ⟨true, .char32, .char32, ⟨.utf .utf32, true⟩, ⟨.utf .utf32, true⟩, ⟨false, false, false⟩, 2, [97, 98, 99], [97, 98], .insufficient, [], []⟩,
  /- utf32.cpp 181 -/ ⟨true, .char32, .char32, ⟨.utf .utf32, true⟩, ⟨.utf .utf32, true⟩, ⟨false, false, false⟩, 0, [65536], [], .insufficient, [], []⟩,
  /- utf32.cpp 203 -/ ⟨true, .char32, .char32, ⟨.utf .utf32, true⟩, ⟨.utf .utf32, true⟩, ⟨true, true, true⟩, 200, [55296], [55296], .completed, [], []⟩,
  /- utf32.cpp 210 -/ ⟨true, .char32, .char32, ⟨.utf .utf32, true⟩, ⟨.utf .utf32, true⟩, ⟨true, true, true⟩, 200, [56319], [56319], .completed, [], []⟩,
  /- utf32.cpp 217 -/ ⟨true, .char32, .char32, ⟨.utf .utf32, true⟩, ⟨.utf .utf32, true⟩, ⟨true, true, true⟩, 200, [56320], [56320], .completed, [], []⟩,
  /- utf32.cpp 224 -/ ⟨true, .char32, .char32, ⟨.utf .utf32, true⟩, ⟨.utf .utf32, true⟩, ⟨true, true, true⟩, 200, [57343], [57343], .completed, [], []⟩,
  /- utf32.cpp 231 -/ ⟨true, .char32, .char32, ⟨.utf .utf32, true⟩, ⟨.utf .utf32, true⟩, ⟨true, true, true⟩, 200, [57343, 55296, 95], [57343, 55296, 95], .completed, [], []⟩,
  /- utf32.cpp 243 -/ ⟨true, .char32, .char32, ⟨.utf .utf32, true⟩, ⟨.utf .utf32, true⟩, ⟨false, false, false⟩, 2, [97, 98, 99], [97, 98], .insufficient, [], []⟩,
  /- utf32.cpp 251 -/ ⟨true, .char32, .char32, ⟨.utf .utf32, true⟩, ⟨.utf .utf32, true⟩, ⟨false, false, false⟩, 2, [97, 98, 99], [97, 98], .insufficient, [], []⟩,
  /- utf32.cpp 259 -/ ⟨true, .char32, .char32, ⟨.utf .utf32, true⟩, ⟨.utf .utf32, true⟩, ⟨true, false, false⟩, 2, [97, 98, 99], [97, 98], .insufficient, [], []⟩,
  /- utf32.cpp 268 -/ ⟨true, .char32, .char32, ⟨.utf .utf32, true⟩, ⟨.utf .utf32, true⟩, ⟨true, true, true⟩, 2, [97, 98, 99], [97, 98], .insufficient, [], []⟩,
  /- utf32.cpp 279 -/ ⟨true, .char32, .char32, ⟨.utf .utf32, true⟩, ⟨.utf .utf32, true⟩, ⟨false, true, true⟩, 2, [97, 98, 99], [97, 98], .insufficient, [], []⟩,
  /- utf32.cpp 336 -/ ⟨true, .char32, .char32, ⟨.utf .utf32, true⟩, ⟨.utf .utf32, true⟩, ⟨true, false, false⟩, 200, [1114112], [65533], .completed, [[1114112]], []⟩,
  /- utf32.cpp 343 -/ ⟨true, .char32, .char32, ⟨.utf .utf32, true⟩, ⟨.utf .utf32, true⟩, ⟨true, true, false⟩, 200, [1114112], [], .invalid, [[1114112]], []⟩,
  /- utf32.cpp 354 -/ ⟨true, .char32, .char32, ⟨.utf .utf32, true⟩, ⟨.utf .utf32, true⟩, ⟨false, true, false⟩, 0, [1114112], [], .invalid, [[1114112]], []⟩,
  /- utf32.cpp 362 -/ ⟨true, .char32, .char32, ⟨.utf .utf32, true⟩, ⟨.utf .utf32, true⟩, ⟨true, true, false⟩, 0, [1114112], [], .invalid, [[1114112]], []⟩,
  /- utf16_to_utf8.cpp 19 -/ ⟨false, .char16, .char8, ⟨.utf .utf16, true⟩, ⟨.utf .utf8, true⟩, ⟨false, false, false⟩, 200, [97, 98], [97, 98], .completed, [], []⟩,
  /- utf16_to_utf8.cpp 26 -/ ⟨false, .char16, .char8, ⟨.utf .utf16, true⟩, ⟨.utf .utf8, true⟩, ⟨false, false, false⟩, 200, [128], [194, 128], .completed, [], []⟩,
  /- utf16_to_utf8.cpp 33 -/ ⟨false, .char16, .char8, ⟨.utf .utf16, true⟩, ⟨.utf .utf8, true⟩, ⟨false, false, false⟩, 200, [2048], [224, 160, 128], .completed, [], []⟩,
  /- utf16_to_utf8.cpp 40 -/ ⟨false, .char16, .char8, ⟨.utf .utf16, true⟩, ⟨.utf .utf8, true⟩, ⟨false, false, false⟩, 200, [55295], [237, 159, 191], .completed, [], []⟩,
  /- utf16_to_utf8.cpp 47 -/ ⟨false, .char16, .char8, ⟨.utf .utf16, true⟩, ⟨.utf .utf8, true⟩, ⟨false, false, false⟩, 200, [55296, 56320], [240, 144, 128, 128], .completed, [], []⟩,
  /- utf16_to_utf8.cpp 54 -/ ⟨false, .char16, .char8, ⟨.utf .utf16, true⟩, ⟨.utf .utf8, true⟩, ⟨false, false, false⟩, 200, [56319, 57343], [244, 143, 191, 191], .completed, [], []⟩,
  /- utf16_to_utf8.cpp 61 -/ ⟨false, .char16, .char8, ⟨.utf .utf16, true⟩, ⟨.utf .utf8, true⟩, ⟨false, false, false⟩, 200, [97, 98, 128, 2048, 55295, 57344, 55296, 56320, 56319, 57343], [97, 98, 194, 128, 224, 160, 128, 237, 159, 191, 238, 128, 128, 240, 144, 128, 128, 244, 143, 191, 191], .completed, [], []⟩,
  /- utf16_to_utf8.cpp 65 -/ ⟨false, .char16, .char, ⟨.utf .utf16, true⟩, ⟨.utf .utf8, true⟩, ⟨false, false, false⟩, 0, [], [], .completed, [], []⟩,
  /- utf16_to_utf8.cpp 70 -/ ⟨false, .char16, .char, ⟨.utf .utf16, true⟩, ⟨.utf .utf8, true⟩, ⟨false, false, false⟩, 0, [97], [], .insufficient, [], []⟩,
  /- utf16_to_utf8.cpp 75 -/ ⟨false, .char16, .char, ⟨.utf .utf16, true⟩, ⟨.utf .utf8, true⟩, ⟨false, false, false⟩, 1, [128], [], .insufficient, [], []⟩,
  /- utf16_to_utf8.cpp 80 -/ ⟨false, .char16, .char, ⟨.utf .utf16, true⟩, ⟨.utf .utf8, true⟩, ⟨false, false, false⟩, 2, [2048], [], .insufficient, [], []⟩,
  /- utf16_to_utf8.cpp 85 -/ ⟨false, .char16, .char, ⟨.utf .utf16, true⟩, ⟨.utf .utf8, true⟩, ⟨false, false, false⟩, 3, [55296, 56320], [], .insufficient, [], []⟩,
  /- utf16_to_utf8.cpp 98 -/ ⟨false, .char16, .char, ⟨.utf .utf16, true⟩, ⟨.utf .utf8, true⟩, ⟨false, false, false⟩, 5, [97, 98, 56319, 57343], [97, 98], .insufficient, [], []⟩,
  /- utf16_to_utf8.cpp 114 -/ ⟨false, .char16, .char, ⟨.utf .utf16, true⟩, ⟨.utf .utf8, true⟩, ⟨true, false, false⟩, 200, [55296], [237, 160, 128], .completed, [], []⟩,
  /- utf16_to_utf8.cpp 121 -/ ⟨false, .char16, .char, ⟨.utf .utf16, true⟩, ⟨.utf .utf8, true⟩, ⟨true, false, false⟩, 200, [56319], [237, 175, 191], .completed, [], []⟩,
  /- utf16_to_utf8.cpp 128 -/ ⟨false, .char16, .char, ⟨.utf .utf16, true⟩, ⟨.utf .utf8, true⟩, ⟨true, false, false⟩, 200, [56320], [237, 176, 128], .completed, [], []⟩,
  /- utf16_to_utf8.cpp 135 -/ ⟨false, .char16, .char, ⟨.utf .utf16, true⟩, ⟨.utf .utf8, true⟩, ⟨true, false, false⟩, 200, [57343], [237, 191, 191], .completed, [], []⟩,
  /- utf16_to_utf8.cpp 142 -/ ⟨false, .char16, .char, ⟨.utf .utf16, true⟩, ⟨.utf .utf8, true⟩, ⟨true, false, false⟩, 200, [57343, 55296, 95], [237, 191, 191, 237, 160, 128, 95], .completed, [], []⟩,
  /- utf16_to_utf8.cpp 154 -/ ⟨false, .char16, .char8, ⟨.utf .utf16, true⟩, ⟨.utf .utf8, true⟩, ⟨true, false, false⟩, 200, [97, 98], [97, 98], .completed, [], []⟩,
  /- utf16_to_utf8.cpp 162 -/ ⟨false, .char16, .char8, ⟨.utf .utf16, true⟩, ⟨.utf .utf8, true⟩, ⟨true, false, false⟩, 200, [128], [194, 128], .completed, [], []⟩,
  /- utf16_to_utf8.cpp 170 -/ ⟨false, .char16, .char8, ⟨.utf .utf16, true⟩, ⟨.utf .utf8, true⟩, ⟨true, false, false⟩, 200, [2048], [224, 160, 128], .completed, [], []⟩,
  /- utf16_to_utf8.cpp 178 -/ ⟨false, .char16, .char8, ⟨.utf .utf16, true⟩, ⟨.utf .utf8, true⟩, ⟨true, false, false⟩, 200, [55295], [237, 159, 191], .completed, [], []⟩] = true := by decide +kernel

set_option maxRecDepth 100000 in
example : allTranscode [
  /- utf16_to_utf8.cpp 186 -/ ⟨false, .char16, .char8, ⟨.utf .utf16, true⟩, ⟨.utf .utf8, true⟩, ⟨true, false, false⟩, 200, [55296, 56320], [240, 144, 128, 128], .completed, [], []⟩,
  /- utf16_to_utf8.cpp 196 -/ ⟨false, .char16, .char, ⟨.utf .utf16, true⟩, ⟨.utf .utf8, true⟩, ⟨true, false, false⟩, 2, [55296], [], .insufficient, [], []⟩,
  /- utf16_to_utf8.cpp 205 -/ ⟨false, .char16, .char, ⟨.utf .utf16, true⟩, ⟨.utf .utf8, true⟩, ⟨true, false, false⟩, 5, [57343, 55296, 95], [237, 191, 191], .insufficient, [], []⟩,
  /- utf16_to_utf8.cpp 214 -/ ⟨false, .char16, .char8, ⟨.utf .utf16, true⟩, ⟨.utf .utf8, true⟩, ⟨true, false, false⟩, 2, [97, 98, 99], [97, 98], .insufficient, [], []⟩,
  /- utf16_to_utf8.cpp 223 -/ ⟨false, .char16, .char8, ⟨.utf .utf16, true⟩, ⟨.utf .utf8, true⟩, ⟨true, false, false⟩, 1, [128], [], .insufficient, [], []⟩,
  /- utf16_to_utf8.cpp 232 -/ ⟨false, .char16, .char8, ⟨.utf .utf16, true⟩, ⟨.utf .utf8, true⟩, ⟨true, false, false⟩, 2, [2048], [], .insufficient, [], []⟩,
  /- utf16_to_utf8.cpp 241 -/ ⟨false, .char16, .char8, ⟨.utf .utf16, true⟩, ⟨.utf .utf8, true⟩, ⟨true, false, false⟩, 2, [55295], [], .insufficient, [], []⟩,
  /- utf16_to_utf8.cpp 250 -/ ⟨false, .char16, .char8, ⟨.utf .utf16, true⟩, ⟨.utf .utf8, true⟩, ⟨true, false, false⟩, 3, [55296, 56320], [], .insufficient, [], []⟩,
  /- utf16_to_utf8.cpp 263 -/ ⟨true, .char16, .char8, ⟨.utf .utf16, true⟩, ⟨.utf .utf8, true⟩, ⟨false, false, false⟩, 200, [97, 98], [97, 98], .completed, [], []⟩,
  /- utf16_to_utf8.cpp 270 -/ ⟨true, .char16, .char8, ⟨.utf .utf16, true⟩, ⟨.utf .utf8, true⟩, ⟨false, false, false⟩, 2, [97, 98], [97, 98], .completed, [], []⟩,
  /- utf16_to_utf8.cpp 278 -/ ⟨true, .char16, .char8, ⟨.utf .utf16, true⟩, ⟨.utf .utf8, true⟩, ⟨false, false, false⟩, 200, [128], [194, 128], .completed, [], []⟩,
  /- utf16_to_utf8.cpp 285 -/ ⟨true, .char16, .char8, ⟨.utf .utf16, true⟩, ⟨.utf .utf8, true⟩, ⟨false, false, false⟩, 200, [2048], [224, 160, 128], .completed, [], []⟩,
  /- utf16_to_utf8.cpp 292 -/ ⟨true, .char16, .char8, ⟨.utf .utf16, true⟩, ⟨.utf .utf8, true⟩, ⟨false, false, false⟩, 200, [55295], [237, 159, 191], .completed, [], []⟩,
  /- utf16_to_utf8.cpp 299 -/ ⟨true, .char16, .char8, ⟨.utf .utf16, true⟩, ⟨.utf .utf8, true⟩, ⟨false, false, false⟩, 200, [55296, 56320], [240, 144, 128, 128], .completed, [], []⟩,
  /- utf16_to_utf8.cpp 306 -/ ⟨true, .char16, .char8, ⟨.utf .utf16, true⟩, ⟨.utf .utf8, true⟩, ⟨false, false, false⟩, 200, [56319, 57343], [244, 143, 191, 191], .completed, [], []⟩,
  /- utf16_to_utf8.cpp 313 -/ ⟨true, .char16, .char8, ⟨.utf .utf16, true⟩, ⟨.utf .utf8, true⟩, ⟨false, false, false⟩, 200, [97, 98, 128, 2048, 55295, 57344, 55296, 56320, 56319, 57343], [97, 98, 194, 128, 224, 160, 128, 237, 159, 191, 238, 128, 128, 240, 144, 128, 128, 244, 143, 191, 191], .completed, [], []⟩,
  /- utf16_to_utf8.cpp 317 -/ ⟨true, .char16, .char, ⟨.utf .utf16, true⟩, ⟨.utf .utf8, true⟩, ⟨false, false, false⟩, 0, [], [], .completed, [], []⟩,
  /- utf16_to_utf8.cpp 322 -/ ⟨true, .char16, .char, ⟨.utf .utf16, true⟩, ⟨.utf .utf8, true⟩, ⟨false, false, false⟩, 0, [97], [], .insufficient, [], []⟩,
  /- utf16_to_utf8.cpp 327 -/ ⟨true, .char16, .char, ⟨.utf .utf16, true⟩, ⟨.utf .utf8, true⟩, ⟨false, false, false⟩, 1, [128], [], .insufficient, [], []⟩,
  /- utf16_to_utf8.cpp 332 -/ ⟨true, .char16, .char, ⟨.utf .utf16, true⟩, ⟨.utf .utf8, true⟩, ⟨false, false, false⟩, 2, [2048], [], .insufficient, [], []⟩,
  /- utf16_to_utf8.cpp 337 -/ ⟨true, .char16, .char, ⟨.utf .utf16, true⟩, ⟨.utf .utf8, true⟩, ⟨false, false, false⟩, 3, [55296, 56320], [], .insufficient, [], []⟩,
  /- utf16_to_utf8.cpp 350 -/ ⟨true, .char16, .char, ⟨.utf .utf16, true⟩, ⟨.utf .utf8, true⟩, ⟨false, false, false⟩, 5, [97, 98, 56319, 57343], [97, 98], .insufficient, [], []⟩,
  /- utf16_to_utf8.cpp 371 -/ ⟨true, .char16, .char, ⟨.utf .utf16, true⟩, ⟨.utf .utf8, true⟩, ⟨true, true, true⟩, 200, [55296], [237, 160, 128], .completed, [], []⟩,
  /- utf16_to_utf8.cpp 378 -/ ⟨true, .char16, .char, ⟨.utf .utf16, true⟩, ⟨.utf .utf8, true⟩, ⟨true, true, true⟩, 200, [56319], [237, 175, 191], .completed, [], []⟩,
  /- utf16_to_utf8.cpp 385 -/ ⟨true, .char16, .char, ⟨.utf .utf16, true⟩, ⟨.utf .utf8, true⟩, ⟨true, true, true⟩, 200, [56320], [237, 176, 128], .completed, [], []⟩,
  /- utf16_to_utf8.cpp 392 -/ ⟨true, .char16, .char, ⟨.utf .utf16, true⟩, ⟨.utf .utf8, true⟩, ⟨true, true, true⟩, 200, [57343], [237, 191, 191], .completed, [], []⟩,
  /- utf16_to_utf8.cpp 399 -/ ⟨true, .char16, .char, ⟨.utf .utf16, true⟩, ⟨.utf .utf8, true⟩, ⟨true, true, true⟩, 200, [57343, 55296, 95], [237, 191, 191, 237, 160, 128, 95], .completed, [], []⟩,
  /- utf16_to_utf8.cpp 408 -/ ⟨true, .char16, .char8, ⟨.utf .utf16, true⟩, ⟨.utf .utf8, true⟩, ⟨false, true, false⟩, 200, [97, 98], [97, 98], .completed, [], []⟩,
  /- utf16_to_utf8.cpp 416 -/ ⟨true, .char16, .char8, ⟨.utf .utf16, true⟩, ⟨.utf .utf8, true⟩, ⟨false, true, false⟩, 200, [128], [194, 128], .completed, [], []⟩,
  /- utf16_to_utf8.cpp 424 -/ ⟨true, .char16, .char8, ⟨.utf .utf16, true⟩, ⟨.utf .utf8, true⟩, ⟨false, true, false⟩, 200, [2048], [224, 160, 128], .completed, [], []⟩,
  /- utf16_to_utf8.cpp 432 -/ ⟨true, .char16, .char8, ⟨.utf .utf16, true⟩, ⟨.utf .utf8, true⟩, ⟨false, true, false⟩, 200, [55295], [237, 159, 191], .completed, [], []⟩,
  /- utf16_to_utf8.cpp 440 -/ ⟨true, .char16, .char8, ⟨.utf .utf16, true⟩, ⟨.utf .utf8, true⟩, ⟨false, true, false⟩, 200, [55296, 56320], [240, 144, 128, 128], .completed, [], []⟩,
  /- utf16_to_utf8.cpp 448 -/ ⟨true, .char16, .char8, ⟨.utf .utf16, true⟩, ⟨.utf .utf8, true⟩, ⟨false, true, false⟩, 200, [56319, 57343], [244, 143, 191, 191], .completed, [], []⟩,
  /- utf16_to_utf8.cpp 459 -/ ⟨true, .char16, .char8, ⟨.utf .utf16, true⟩, ⟨.utf .utf8, true⟩, ⟨false, false, false⟩, 2, [97, 98, 99], [97, 98], .insufficient, [], []⟩,
  /- utf16_to_utf8.cpp 467 -/ ⟨true, .char16, .char8, ⟨.utf .utf16, true⟩, ⟨.utf .utf8, true⟩, ⟨false, false, false⟩, 1, [128], [], .insufficient, [], []⟩,
  /- utf16_to_utf8.cpp 475 -/ ⟨true, .char16, .char8, ⟨.utf .utf16, true⟩, ⟨.utf .utf8, true⟩, ⟨false, false, false⟩, 2, [2048], [], .insufficient, [], []⟩,
  /- utf16_to_utf8.cpp 483 -/ ⟨true, .char16, .char8, ⟨.utf .utf16, true⟩, ⟨.utf .utf8, true⟩, ⟨false, false, false⟩, 2, [55295], [], .insufficient, [], []⟩,
  /- utf16_to_utf8.cpp 491 -/ ⟨true, .char16, .char8, ⟨.utf .utf16, true⟩, ⟨.utf .utf8, true⟩, ⟨false, false, false⟩, 3, [55296, 56320], [], .insufficient, [], []⟩,
  /- utf16_to_utf8.cpp 499 -/ ⟨true, .char16, .char8, ⟨.utf .utf16, true⟩, ⟨.utf .utf8, true⟩, ⟨false, false, false⟩, 3, [56319, 57343], [], .insufficient, [], []⟩,
  /- utf16_to_utf8.cpp 520 -/ ⟨true, .char16, .char, ⟨.utf .utf16, true⟩, ⟨.utf .utf8, true⟩, ⟨true, true, true⟩, 2, [55296], [], .insufficient, [], []⟩] = true := by decide +kernel

set_option maxRecDepth 100000 in
example : allTranscode [
  /- utf16_to_utf8.cpp 528 -/ ⟨true, .char16, .char, ⟨.utf .utf16, true⟩, ⟨.utf .utf8, true⟩, ⟨true, true, true⟩, 2, [56319], [], .insufficient, [], []⟩,
  /- utf16_to_utf8.cpp 536 -/ ⟨true, .char16, .char, ⟨.utf .utf16, true⟩, ⟨.utf .utf8, true⟩, ⟨true, true, true⟩, 2, [56320], [], .insufficient, [], []⟩,
  /- utf16_to_utf8.cpp 544 -/ ⟨true, .char16, .char, ⟨.utf .utf16, true⟩, ⟨.utf .utf8, true⟩, ⟨true, true, true⟩, 2, [57343], [], .insufficient, [], []⟩,
  /- utf16_to_utf8.cpp 552 -/ ⟨true, .char16, .char, ⟨.utf .utf16, true⟩, ⟨.utf .utf8, true⟩, ⟨true, true, true⟩, 2, [57343, 55296, 95], [], .insufficient, [], []⟩,
  /- utf16_to_utf8.cpp 563 -/ ⟨true, .char16, .char8, ⟨.utf .utf16, true⟩, ⟨.utf .utf8, true⟩, ⟨false, true, false⟩, 1, [128], [], .insufficient, [], []⟩,
  /- utf16_to_utf8.cpp 572 -/ ⟨true, .char16, .char8, ⟨.utf .utf16, true⟩, ⟨.utf .utf8, true⟩, ⟨false, true, false⟩, 2, [2048], [], .insufficient, [], []⟩,
  /- utf16_to_utf8.cpp 581 -/ ⟨true, .char16, .char8, ⟨.utf .utf16, true⟩, ⟨.utf .utf8, true⟩, ⟨false, true, false⟩, 2, [55295], [], .insufficient, [], []⟩,
  /- utf16_to_utf8.cpp 590 -/ ⟨true, .char16, .char8, ⟨.utf .utf16, true⟩, ⟨.utf .utf8, true⟩, ⟨false, true, false⟩, 3, [55296, 56320], [], .insufficient, [], []⟩,
  /- utf16_to_utf8.cpp 599 -/ ⟨true, .char16, .char8, ⟨.utf .utf16, true⟩, ⟨.utf .utf8, true⟩, ⟨false, true, false⟩, 3, [56319, 57343], [], .insufficient, [], []⟩,
  /- utf16_to_utf8.cpp 617 -/ ⟨true, .char16, .char8, ⟨.utf .utf16, true⟩, ⟨.utf .utf8, true⟩, ⟨false, false, false⟩, 200, [97, 98, 99, 95, 55296, 95, 100, 101, 102], [97, 98, 99, 95, 239, 191, 189, 95, 100, 101, 102], .completed, [[55296]], []⟩,
  /- utf16_to_utf8.cpp 623 -/ ⟨true, .char16, .char8, ⟨.utf .utf16, true⟩, ⟨.utf .utf8, true⟩, ⟨false, false, false⟩, 200, [97, 98, 99, 95, 56319, 95, 100, 101, 102], [97, 98, 99, 95, 239, 191, 189, 95, 100, 101, 102], .completed, [[56319]], []⟩,
  /- utf16_to_utf8.cpp 629 -/ ⟨true, .char16, .char8, ⟨.utf .utf16, true⟩, ⟨.utf .utf8, true⟩, ⟨false, true, false⟩, 200, [97, 98, 99, 95, 55296, 95, 100, 101, 102], [97, 98, 99, 95], .invalid, [[55296]], []⟩,
  /- utf16_to_utf8.cpp 636 -/ ⟨true, .char16, .char8, ⟨.utf .utf16, true⟩, ⟨.utf .utf8, true⟩, ⟨false, false, false⟩, 6, [97, 98, 99, 95, 55296, 95, 100, 101, 102], [97, 98, 99, 95], .insufficient, [[55296]], []⟩,
  /- utf16_to_utf8.cpp 645 -/ ⟨true, .char16, .char8, ⟨.utf .utf16, true⟩, ⟨.utf .utf8, true⟩, ⟨false, false, false⟩, 200, [97, 98, 99, 95, 56320, 95, 100, 101, 102], [97, 98, 99, 95, 239, 191, 189, 95, 100, 101, 102], .completed, [[56320]], []⟩,
  /- utf16_to_utf8.cpp 651 -/ ⟨true, .char16, .char8, ⟨.utf .utf16, true⟩, ⟨.utf .utf8, true⟩, ⟨false, false, false⟩, 200, [97, 98, 99, 95, 57343, 95, 100, 101, 102], [97, 98, 99, 95, 239, 191, 189, 95, 100, 101, 102], .completed, [[57343]], []⟩,
  /- utf16_to_utf8.cpp 657 -/ ⟨true, .char16, .char8, ⟨.utf .utf16, true⟩, ⟨.utf .utf8, true⟩, ⟨false, true, false⟩, 200, [97, 98, 99, 95, 56320, 95, 100, 101, 102], [97, 98, 99, 95], .invalid, [[56320]], []⟩,
  /- utf16_to_utf8.cpp 666 -/ ⟨true, .char16, .char8, ⟨.utf .utf16, true⟩, ⟨.utf .utf8, true⟩, ⟨false, false, false⟩, 200, [97, 98, 99, 95, 55296, 56319, 95, 100, 101, 102], [97, 98, 99, 95, 239, 191, 189, 239, 191, 189, 95, 100, 101, 102], .completed, [[55296], [56319]], []⟩,
  /- utf16_to_utf8.cpp 673 -/ ⟨true, .char16, .char8, ⟨.utf .utf16, true⟩, ⟨.utf .utf8, true⟩, ⟨false, true, false⟩, 200, [97, 98, 99, 95, 55296, 56319, 95, 100, 101, 102], [97, 98, 99, 95], .invalid, [[55296]], []⟩,
  /- utf16_to_utf8.cpp 682 -/ ⟨true, .char16, .char8, ⟨.utf .utf16, true⟩, ⟨.utf .utf8, true⟩, ⟨false, false, false⟩, 200, [97, 98, 99, 95, 56320, 55296, 95, 100, 101, 102], [97, 98, 99, 95, 239, 191, 189, 239, 191, 189, 95, 100, 101, 102], .completed, [[56320], [55296]], []⟩,
  /- utf16_to_utf8.cpp 689 -/ ⟨true, .char16, .char8, ⟨.utf .utf16, true⟩, ⟨.utf .utf8, true⟩, ⟨false, true, false⟩, 200, [97, 98, 99, 95, 56320, 55296, 95, 100, 101, 102], [97, 98, 99, 95], .invalid, [[56320]], []⟩,
  /- utf16_to_utf8.cpp 698 -/ ⟨true, .char16, .char8, ⟨.utf .utf16, true⟩, ⟨.utf .utf8, true⟩, ⟨false, false, false⟩, 200, [97, 98, 99, 95, 56320, 95, 100, 101, 102], [97, 98, 99, 95, 239, 191, 189, 95, 100, 101, 102], .completed, [[56320]], []⟩,
  /- utf16_to_utf8.cpp 704 -/ ⟨true, .char16, .char8, ⟨.utf .utf16, true⟩, ⟨.utf .utf8, true⟩, ⟨false, false, false⟩, 200, [97, 98, 99, 95, 57343, 95, 100, 101, 102], [97, 98, 99, 95, 239, 191, 189, 95, 100, 101, 102], .completed, [[57343]], []⟩,
  /- utf16_to_utf8.cpp 711 -/ ⟨true, .char16, .char8, ⟨.utf .utf16, true⟩, ⟨.utf .utf8, true⟩, ⟨false, true, false⟩, 200, [97, 98, 99, 95, 56320, 95, 100, 101, 102], [97, 98, 99, 95], .invalid, [[56320]], []⟩,
  /- utf16_to_utf32.cpp 23 -/ ⟨false, .char16, .char32, ⟨.utf .utf16, true⟩, ⟨.utf .utf32, true⟩, ⟨false, false, false⟩, 200, [97, 98], [97, 98], .completed, [], []⟩,
  /- utf16_to_utf32.cpp 30 -/ ⟨false, .char16, .char32, ⟨.utf .utf16, true⟩, ⟨.utf .utf32, true⟩, ⟨false, false, false⟩, 200, [128], [128], .completed, [], []⟩,
  /- utf16_to_utf32.cpp 37 -/ ⟨false, .char16, .char32, ⟨.utf .utf16, true⟩, ⟨.utf .utf32, true⟩, ⟨false, false, false⟩, 200, [2048], [2048], .completed, [], []⟩,
  /- utf16_to_utf32.cpp 44 -/ ⟨false, .char16, .char32, ⟨.utf .utf16, true⟩, ⟨.utf .utf32, true⟩, ⟨false, false, false⟩, 200, [55295], [55295], .completed, [], []⟩,
  /- utf16_to_utf32.cpp 51 -/ ⟨false, .char16, .char32, ⟨.utf .utf16, true⟩, ⟨.utf .utf32, true⟩, ⟨false, false, false⟩, 200, [55296, 56320], [65536], .completed, [], []⟩,
  /- utf16_to_utf32.cpp 58 -/ ⟨false, .char16, .char32, ⟨.utf .utf16, true⟩, ⟨.utf .utf32, true⟩, ⟨false, false, false⟩, 200, [56319, 57343], [1114111], .completed, [], []⟩,
  /- utf16_to_utf32.cpp 65 -/ ⟨false, .char16, .char32, ⟨.utf .utf16, true⟩, ⟨.utf .utf32, true⟩, ⟨false, false, false⟩, 200, [97, 98, 128, 2048, 55295, 55296, 56320, 56319, 57343], [97, 98, 128, 2048, 55295, 65536, 1114111], .completed, [], []⟩,
  /- utf16_to_utf32.cpp 69 -/ ⟨false, .char16, .char32, ⟨.utf .utf16, true⟩, ⟨.utf .utf32, true⟩, ⟨false, false, false⟩, 2, [97, 98, 99], [97, 98], .insufficient, [], []⟩,
  /- utf16_to_utf32.cpp 74 -/ ⟨false, .char16, .char32, ⟨.utf .utf16, true⟩, ⟨.utf .utf32, true⟩, ⟨false, false, false⟩, 0, [55296, 56320], [], .insufficient, [], []⟩,
  /- utf16_to_utf32.cpp 91 -/ ⟨false, .char16, .char32, ⟨.utf .utf16, true⟩, ⟨.utf .utf32, true⟩, ⟨true, false, false⟩, 200, [55296], [55296], .completed, [], []⟩,
  /- utf16_to_utf32.cpp 98 -/ ⟨false, .char16, .char32, ⟨.utf .utf16, true⟩, ⟨.utf .utf32, true⟩, ⟨true, false, false⟩, 200, [56319], [56319], .completed, [], []⟩,
  /- utf16_to_utf32.cpp 105 -/ ⟨false, .char16, .char32, ⟨.utf .utf16, true⟩, ⟨.utf .utf32, true⟩, ⟨true, false, false⟩, 200, [56320], [56320], .completed, [], []⟩,
  /- utf16_to_utf32.cpp 112 -/ ⟨false, .char16, .char32, ⟨.utf .utf16, true⟩, ⟨.utf .utf32, true⟩, ⟨true, false, false⟩, 200, [57343], [57343], .completed, [], []⟩,
  /- utf16_to_utf32.cpp 119 -/ ⟨false, .char16, .char32, ⟨.utf .utf16, true⟩, ⟨.utf .utf32, true⟩, ⟨true, false, false⟩, 200, [57343, 55296, 95], [57343, 55296, 95], .completed, [], []⟩,
  /- utf16_to_utf32.cpp 127 -/ ⟨false, .char16, .char32, ⟨.utf .utf16, true⟩, ⟨.utf .utf32, true⟩, ⟨true, false, false⟩, 200, [97, 98], [97, 98], .completed, [], []⟩,
  /- utf16_to_utf32.cpp 135 -/ ⟨false, .char16, .char32, ⟨.utf .utf16, true⟩, ⟨.utf .utf32, true⟩, ⟨true, false, false⟩, 200, [2048], [2048], .completed, [], []⟩,
  /- utf16_to_utf32.cpp 143 -/ ⟨false, .char16, .char32, ⟨.utf .utf16, true⟩, ⟨.utf .utf32, true⟩, ⟨true, false, false⟩, 200, [55296, 56320], [65536], .completed, [], []⟩] = true := by decide +kernel

set_option maxRecDepth 100000 in
example : allTranscode [
  /- utf16_to_utf32.cpp 154 -/ ⟨false, .char16, .char32, ⟨.utf .utf16, true⟩, ⟨.utf .utf32, true⟩, ⟨false, false, false⟩, 2, [97, 98, 99], [97, 98], .insufficient, [], []⟩,
  /- utf16_to_utf32.cpp 162 -/ ⟨false, .char16, .char32, ⟨.utf .utf16, true⟩, ⟨.utf .utf32, true⟩, ⟨false, false, false⟩, 1, [95, 2048], [95], .insufficient, [], []⟩,
  /- utf16_to_utf32.cpp 170 -/ ⟨false, .char16, .char32, ⟨.utf .utf16, true⟩, ⟨.utf .utf32, true⟩, ⟨false, false, false⟩, 1, [95, 55296, 56320], [95], .insufficient, [], []⟩,
  /- utf16_to_utf32.cpp 181 -/ ⟨false, .char16, .char32, ⟨.utf .utf16, true⟩, ⟨.utf .utf32, true⟩, ⟨true, false, false⟩, 0, [55296], [], .insufficient, [], []⟩,
  /- utf16_to_utf32.cpp 190 -/ ⟨false, .char16, .char32, ⟨.utf .utf16, true⟩, ⟨.utf .utf32, true⟩, ⟨true, false, false⟩, 2, [97, 98, 99], [97, 98], .insufficient, [], []⟩,
  /- utf16_to_utf32.cpp 199 -/ ⟨false, .char16, .char32, ⟨.utf .utf16, true⟩, ⟨.utf .utf32, true⟩, ⟨true, false, false⟩, 1, [95, 2048], [95], .insufficient, [], []⟩,
  /- utf16_to_utf32.cpp 208 -/ ⟨false, .char16, .char32, ⟨.utf .utf16, true⟩, ⟨.utf .utf32, true⟩, ⟨true, false, false⟩, 1, [95, 55296, 56320], [95], .insufficient, [], []⟩,
  /- utf16_to_utf32.cpp 222 -/ ⟨true, .char16, .char32, ⟨.utf .utf16, true⟩, ⟨.utf .utf32, true⟩, ⟨false, false, false⟩, 200, [97, 98], [97, 98], .completed, [], []⟩,
  /- utf16_to_utf32.cpp 229 -/ ⟨true, .char16, .char32, ⟨.utf .utf16, true⟩, ⟨.utf .utf32, true⟩, ⟨false, false, false⟩, 200, [128], [128], .completed, [], []⟩,
  /- utf16_to_utf32.cpp 236 -/ ⟨true, .char16, .char32, ⟨.utf .utf16, true⟩, ⟨.utf .utf32, true⟩, ⟨false, false, false⟩, 200, [2048], [2048], .completed, [], []⟩,
  /- utf16_to_utf32.cpp 243 -/ ⟨true, .char16, .char32, ⟨.utf .utf16, true⟩, ⟨.utf .utf32, true⟩, ⟨false, false, false⟩, 200, [55295], [55295], .completed, [], []⟩,
  /- utf16_to_utf32.cpp 250 -/ ⟨true, .char16, .char32, ⟨.utf .utf16, true⟩, ⟨.utf .utf32, true⟩, ⟨false, false, false⟩, 200, [55296, 56320], [65536], .completed, [], []⟩,
  /- utf16_to_utf32.cpp 257 -/ ⟨true, .char16, .char32, ⟨.utf .utf16, true⟩, ⟨.utf .utf32, true⟩, ⟨false, false, false⟩, 200, [56319, 57343], [1114111], .completed, [], []⟩,
  /- utf16_to_utf32.cpp 264 -/ ⟨true, .char16, .char32, ⟨.utf .utf16, true⟩, ⟨.utf .utf32, true⟩, ⟨false, false, false⟩, 200, [97, 98, 128, 2048, 55295, 55296, 56320, 56319, 57343], [97, 98, 128, 2048, 55295, 65536, 1114111], .completed, [], []⟩,
  /- utf16_to_utf32.cpp 268 -/ ⟨true, .char16, .char32, ⟨.utf .utf16, true⟩, ⟨.utf .utf32, true⟩, ⟨false, false, false⟩, 2, [97, 98, 99], [97, 98], .insufficient, [], []⟩,
  /- utf16_to_utf32.cpp 273 -/ ⟨true, .char16, .char32, ⟨.utf .utf16, true⟩, ⟨.utf .utf32, true⟩, ⟨false, false, false⟩, 0, [55296, 56320], [], .insufficient, [], []⟩,
  /- utf16_to_utf32.cpp 296 -/ ⟨true, .char16, .char32, ⟨.utf .utf16, true⟩, ⟨.utf .utf32, true⟩, ⟨true, true, true⟩, 200, [55296], [55296], .completed, [], []⟩,
  /- utf16_to_utf32.cpp 303 -/ ⟨true, .char16, .char32, ⟨.utf .utf16, true⟩, ⟨.utf .utf32, true⟩, ⟨true, true, true⟩, 200, [56319], [56319], .completed, [], []⟩,
  /- utf16_to_utf32.cpp 310 -/ ⟨true, .char16, .char32, ⟨.utf .utf16, true⟩, ⟨.utf .utf32, true⟩, ⟨true, true, true⟩, 200, [56320], [56320], .completed, [], []⟩,
  /- utf16_to_utf32.cpp 317 -/ ⟨true, .char16, .char32, ⟨.utf .utf16, true⟩, ⟨.utf .utf32, true⟩, ⟨true, true, true⟩, 200, [57343], [57343], .completed, [], []⟩,
  /- utf16_to_utf32.cpp 324 -/ ⟨true, .char16, .char32, ⟨.utf .utf16, true⟩, ⟨.utf .utf32, true⟩, ⟨true, true, true⟩, 200, [57343, 55296, 95], [57343, 55296, 95], .completed, [], []⟩,
  /- utf16_to_utf32.cpp 335 -/ ⟨true, .char16, .char32, ⟨.utf .utf16, true⟩, ⟨.utf .utf32, true⟩, ⟨false, true, false⟩, 200, [97, 98], [97, 98], .completed, [], []⟩,
  /- utf16_to_utf32.cpp 342 -/ ⟨true, .char16, .char32, ⟨.utf .utf16, true⟩, ⟨.utf .utf32, true⟩, ⟨false, true, false⟩, 200, [2048], [2048], .completed, [], []⟩,
  /- utf16_to_utf32.cpp 349 -/ ⟨true, .char16, .char32, ⟨.utf .utf16, true⟩, ⟨.utf .utf32, true⟩, ⟨false, true, false⟩, 200, [55296, 56320], [65536], .completed, [], []⟩,
  /- utf16_to_utf32.cpp 360 -/ ⟨true, .char16, .char32, ⟨.utf .utf16, true⟩, ⟨.utf .utf32, true⟩, ⟨false, false, false⟩, 2, [97, 98, 99], [97, 98], .insufficient, [], []⟩,
  /- utf16_to_utf32.cpp 369 -/ ⟨true, .char16, .char32, ⟨.utf .utf16, true⟩, ⟨.utf .utf32, true⟩, ⟨false, false, false⟩, 1, [95, 2048], [95], .insufficient, [], []⟩,
  /- utf16_to_utf32.cpp 381 -/ ⟨true, .char16, .char32, ⟨.utf .utf16, true⟩, ⟨.utf .utf32, true⟩, ⟨true, false, false⟩, 1, [95, 55296], [95], .insufficient, [], []⟩,
  /- utf16_to_utf32.cpp 393 -/ ⟨true, .char16, .char32, ⟨.utf .utf16, true⟩, ⟨.utf .utf32, true⟩, ⟨false, true, false⟩, 2, [97, 98, 99], [97, 98], .insufficient, [], []⟩,
  /- utf16_to_utf32.cpp 402 -/ ⟨true, .char16, .char32, ⟨.utf .utf16, true⟩, ⟨.utf .utf32, true⟩, ⟨false, true, false⟩, 1, [95, 2048], [95], .insufficient, [], []⟩,
  /- utf16_to_utf32.cpp 415 -/ ⟨true, .char16, .char32, ⟨.utf .utf16, true⟩, ⟨.utf .utf32, true⟩, ⟨true, true, false⟩, 1, [95, 55296], [95], .insufficient, [], []⟩,
  /- utf16_to_utf32.cpp 436 -/ ⟨true, .char16, .char32, ⟨.utf .utf16, true⟩, ⟨.utf .utf32, true⟩, ⟨false, false, false⟩, 200, [97, 98, 99, 95, 55296, 95, 100, 101, 102], [97, 98, 99, 95, 65533, 95, 100, 101, 102], .completed, [[55296]], []⟩,
  /- utf16_to_utf32.cpp 442 -/ ⟨true, .char16, .char32, ⟨.utf .utf16, true⟩, ⟨.utf .utf32, true⟩, ⟨false, false, false⟩, 200, [97, 98, 99, 95, 56319, 95, 100, 101, 102], [97, 98, 99, 95, 65533, 95, 100, 101, 102], .completed, [[56319]], []⟩,
  /- utf16_to_utf32.cpp 448 -/ ⟨true, .char16, .char32, ⟨.utf .utf16, true⟩, ⟨.utf .utf32, true⟩, ⟨false, true, false⟩, 200, [97, 98, 99, 95, 55296, 95, 100, 101, 102], [97, 98, 99, 95], .invalid, [[55296]], []⟩,
  /- utf16_to_utf32.cpp 455 -/ ⟨true, .char16, .char32, ⟨.utf .utf16, true⟩, ⟨.utf .utf32, true⟩, ⟨false, false, false⟩, 4, [97, 98, 99, 95, 55296, 95, 100, 101, 102], [97, 98, 99, 95], .insufficient, [[55296]], []⟩,
  /- utf16_to_utf32.cpp 464 -/ ⟨true, .char16, .char32, ⟨.utf .utf16, true⟩, ⟨.utf .utf32, true⟩, ⟨false, false, false⟩, 200, [97, 98, 99, 95, 56320, 95, 100, 101, 102], [97, 98, 99, 95, 65533, 95, 100, 101, 102], .completed, [[56320]], []⟩,
  /- utf16_to_utf32.cpp 470 -/ ⟨true, .char16, .char32, ⟨.utf .utf16, true⟩, ⟨.utf .utf32, true⟩, ⟨false, false, false⟩, 200, [97, 98, 99, 95, 57343, 95, 100, 101, 102], [97, 98, 99, 95, 65533, 95, 100, 101, 102], .completed, [[57343]], []⟩,
  /- utf16_to_utf32.cpp 476 -/ ⟨true, .char16, .char32, ⟨.utf .utf16, true⟩, ⟨.utf .utf32, true⟩, ⟨false, true, false⟩, 200, [97, 98, 99, 95, 56320, 95, 100, 101, 102], [97, 98, 99, 95], .invalid, [[56320]], []⟩,
  /- utf16_to_utf32.cpp 485 -/ ⟨true, .char16, .char32, ⟨.utf .utf16, true⟩, ⟨.utf .utf32, true⟩, ⟨false, false, false⟩, 200, [97, 98, 99, 95, 55296, 56319, 95, 100, 101, 102], [97, 98, 99, 95, 65533, 65533, 95, 100, 101, 102], .completed, [[55296], [56319]], []⟩,
  /- utf16_to_utf32.cpp 492 -/ ⟨true, .char16, .char32, ⟨.utf .utf16, true⟩, ⟨.utf .utf32, true⟩, ⟨false, true, false⟩, 200, [97, 98, 99, 95, 55296, 56319, 95, 100, 101, 102], [97, 98, 99, 95], .invalid, [[55296]], []⟩,
  /- utf16_to_utf32.cpp 501 -/ ⟨true, .char16, .char32, ⟨.utf .utf16, true⟩, ⟨.utf .utf32, true⟩, ⟨false, false, false⟩, 200, [97, 98, 99, 95, 56320, 55296, 95, 100, 101, 102], [97, 98, 99, 95, 65533, 65533, 95, 100, 101, 102], .completed, [[56320], [55296]], []⟩] = true := by decide +kernel

set_option maxRecDepth 100000 in
example : allTranscode [
  /- utf16_to_utf32.cpp 508 -/ ⟨true, .char16, .char32, ⟨.utf .utf16, true⟩, ⟨.utf .utf32, true⟩, ⟨false, true, false⟩, 200, [97, 98, 99, 95, 56320, 55296, 95, 100, 101, 102], [97, 98, 99, 95], .invalid, [[56320]], []⟩,
  /- utf16_to_utf32.cpp 517 -/ ⟨true, .char16, .char32, ⟨.utf .utf16, true⟩, ⟨.utf .utf32, true⟩, ⟨false, false, false⟩, 200, [97, 98, 99, 95, 56320, 95, 100, 101, 102], [97, 98, 99, 95, 65533, 95, 100, 101, 102], .completed, [[56320]], []⟩,
  /- utf16_to_utf32.cpp 523 -/ ⟨true, .char16, .char32, ⟨.utf .utf16, true⟩, ⟨.utf .utf32, true⟩, ⟨false, false, false⟩, 200, [97, 98, 99, 95, 57343, 95, 100, 101, 102], [97, 98, 99, 95, 65533, 95, 100, 101, 102], .completed, [[57343]], []⟩,
  /- utf16_to_utf32.cpp 530 -/ ⟨true, .char16, .char32, ⟨.utf .utf16, true⟩, ⟨.utf .utf32, true⟩, ⟨false, true, false⟩, 200, [97, 98, 99, 95, 56320, 95, 100, 101, 102], [97, 98, 99, 95], .invalid, [[56320]], []⟩,
  /- utf32_to_utf8.cpp 31 -/ ⟨false, .char32, .char8, ⟨.utf .utf32, true⟩, ⟨.utf .utf8, true⟩, ⟨false, false, false⟩, 200, [], [], .completed, [], []⟩,
  /- utf32_to_utf8.cpp 38 -/ ⟨false, .char32, .char8, ⟨.utf .utf32, true⟩, ⟨.utf .utf8, true⟩, ⟨false, false, false⟩, 200, [97, 98], [97, 98], .completed, [], []⟩,
  /- utf32_to_utf8.cpp 45 -/ ⟨false, .char32, .char8, ⟨.utf .utf32, true⟩, ⟨.utf .utf8, true⟩, ⟨false, false, false⟩, 200, [128], [194, 128], .completed, [], []⟩,
  /- utf32_to_utf8.cpp 52 -/ ⟨false, .char32, .char8, ⟨.utf .utf32, true⟩, ⟨.utf .utf8, true⟩, ⟨false, false, false⟩, 200, [2048], [224, 160, 128], .completed, [], []⟩,
  /- utf32_to_utf8.cpp 59 -/ ⟨false, .char32, .char8, ⟨.utf .utf32, true⟩, ⟨.utf .utf8, true⟩, ⟨false, false, false⟩, 200, [55295], [237, 159, 191], .completed, [], []⟩,
  /- utf32_to_utf8.cpp 66 -/ ⟨false, .char32, .char8, ⟨.utf .utf32, true⟩, ⟨.utf .utf8, true⟩, ⟨false, false, false⟩, 200, [65536], [240, 144, 128, 128], .completed, [], []⟩,
  /- utf32_to_utf8.cpp 73 -/ ⟨false, .char32, .char8, ⟨.utf .utf32, true⟩, ⟨.utf .utf8, true⟩, ⟨false, false, false⟩, 200, [1114111], [244, 143, 191, 191], .completed, [], []⟩,
  /- utf32_to_utf8.cpp 102 -/ ⟨false, .char32, .char8, ⟨.utf .utf32, true⟩, ⟨.utf .utf8, true⟩, ⟨false, false, false⟩, 200, [97, 98, 128, 2048, 55295, 57344, 65536, 1114111], [97, 98, 194, 128, 224, 160, 128, 237, 159, 191, 238, 128, 128, 240, 144, 128, 128, 244, 143, 191, 191], .completed, [], []⟩,
  /- utf32_to_utf8.cpp 106 -/ ⟨false, .char32, .char8, ⟨.utf .utf32, true⟩, ⟨.utf .utf8, true⟩, ⟨false, false, false⟩, 2, [97, 98, 99], [97, 98], .insufficient, [], []⟩,
  /- utf32_to_utf8.cpp 111 -/ ⟨false, .char32, .char8, ⟨.utf .utf32, true⟩, ⟨.utf .utf8, true⟩, ⟨false, false, false⟩, 1, [65536], [], .insufficient, [], []⟩,
  /- utf32_to_utf8.cpp 116 -/ ⟨false, .char32, .char8, ⟨.utf .utf32, true⟩, ⟨.utf .utf8, true⟩, ⟨false, false, false⟩, 0, [65536], [], .insufficient, [], []⟩,
  /- utf32_to_utf8.cpp 121 -/ ⟨false, .char32, .char8, ⟨.utf .utf32, true⟩, ⟨.utf .utf8, true⟩, ⟨false, false, false⟩, 0, [97, 98, 99], [], .insufficient, [], []⟩,
  /- utf32_to_utf8.cpp 128 -/ ⟨false, .char32, .char, ⟨.utf .utf32, true⟩, ⟨.utf .utf8, true⟩, ⟨true, false, false⟩, 200, [55296], [237, 160, 128], .completed, [], []⟩,
  /- utf32_to_utf8.cpp 135 -/ ⟨false, .char32, .char, ⟨.utf .utf32, true⟩, ⟨.utf .utf8, true⟩, ⟨true, false, false⟩, 200, [56319], [237, 175, 191], .completed, [], []⟩,
  /- utf32_to_utf8.cpp 142 -/ ⟨false, .char32, .char, ⟨.utf .utf32, true⟩, ⟨.utf .utf8, true⟩, ⟨true, false, false⟩, 200, [56320], [237, 176, 128], .completed, [], []⟩,
  /- utf32_to_utf8.cpp 149 -/ ⟨false, .char32, .char, ⟨.utf .utf32, true⟩, ⟨.utf .utf8, true⟩, ⟨true, false, false⟩, 200, [57343], [237, 191, 191], .completed, [], []⟩,
  /- utf32_to_utf8.cpp 156 -/ ⟨false, .char32, .char, ⟨.utf .utf32, true⟩, ⟨.utf .utf8, true⟩, ⟨true, false, false⟩, 200, [57343, 55296, 95], [237, 191, 191, 237, 160, 128, 95], .completed, [], []⟩,
  /- utf32_to_utf8.cpp 167 -/ ⟨true, .char32, .char8, ⟨.utf .utf32, true⟩, ⟨.utf .utf8, true⟩, ⟨false, false, false⟩, 200, [97, 98], [97, 98], .completed, [], []⟩,
  /- utf32_to_utf8.cpp 174 -/ ⟨true, .char32, .char8, ⟨.utf .utf32, true⟩, ⟨.utf .utf8, true⟩, ⟨false, false, false⟩, 200, [128], [194, 128], .completed, [], []⟩,
  /- utf32_to_utf8.cpp 181 -/ ⟨true, .char32, .char8, ⟨.utf .utf32, true⟩, ⟨.utf .utf8, true⟩, ⟨false, false, false⟩, 200, [2048], [224, 160, 128], .completed, [], []⟩,
  /- utf32_to_utf8.cpp 188 -/ ⟨true, .char32, .char8, ⟨.utf .utf32, true⟩, ⟨.utf .utf8, true⟩, ⟨false, false, false⟩, 200, [55295], [237, 159, 191], .completed, [], []⟩,
  /- utf32_to_utf8.cpp 195 -/ ⟨true, .char32, .char8, ⟨.utf .utf32, true⟩, ⟨.utf .utf8, true⟩, ⟨false, false, false⟩, 200, [65536], [240, 144, 128, 128], .completed, [], []⟩,
  /- utf32_to_utf8.cpp 202 -/ ⟨true, .char32, .char8, ⟨.utf .utf32, true⟩, ⟨.utf .utf8, true⟩, ⟨false, false, false⟩, 200, [1114111], [244, 143, 191, 191], .completed, [], []⟩,
  /- utf32_to_utf8.cpp 249 -/ ⟨true, .char32, .char, ⟨.utf .utf32, true⟩, ⟨.utf .utf8, true⟩, ⟨true, true, true⟩, 200, [55296], [237, 160, 128], .completed, [], []⟩,
  /- utf32_to_utf8.cpp 256 -/ ⟨true, .char32, .char, ⟨.utf .utf32, true⟩, ⟨.utf .utf8, true⟩, ⟨true, true, true⟩, 200, [56319], [237, 175, 191], .completed, [], []⟩,
  /- utf32_to_utf8.cpp 263 -/ ⟨true, .char32, .char, ⟨.utf .utf32, true⟩, ⟨.utf .utf8, true⟩, ⟨true, true, true⟩, 200, [56320], [237, 176, 128], .completed, [], []⟩,
  /- utf32_to_utf8.cpp 270 -/ ⟨true, .char32, .char, ⟨.utf .utf32, true⟩, ⟨.utf .utf8, true⟩, ⟨true, true, true⟩, 200, [57343], [237, 191, 191], .completed, [], []⟩,
  /- utf32_to_utf8.cpp 277 -/ ⟨true, .char32, .char, ⟨.utf .utf32, true⟩, ⟨.utf .utf8, true⟩, ⟨true, true, true⟩, 200, [57343, 55296, 95], [237, 191, 191, 237, 160, 128, 95], .completed, [], []⟩,
  /- utf32_to_utf8.cpp 289 -/ ⟨true, .char32, .char8, ⟨.utf .utf32, true⟩, ⟨.utf .utf8, true⟩, ⟨false, false, false⟩, 2, [97, 98, 99], [97, 98], .insufficient, [], []⟩,
  /- utf32_to_utf8.cpp 297 -/ ⟨true, .char32, .char8, ⟨.utf .utf32, true⟩, ⟨.utf .utf8, true⟩, ⟨false, false, false⟩, 1, [128], [], .insufficient, [], []⟩,
  /- utf32_to_utf8.cpp 305 -/ ⟨true, .char32, .char8, ⟨.utf .utf32, true⟩, ⟨.utf .utf8, true⟩, ⟨false, false, false⟩, 2, [2048], [], .insufficient, [], []⟩,
  /- utf32_to_utf8.cpp 313 -/ ⟨true, .char32, .char8, ⟨.utf .utf32, true⟩, ⟨.utf .utf8, true⟩, ⟨false, false, false⟩, 2, [55295], [], .insufficient, [], []⟩,
  /- utf32_to_utf8.cpp 321 -/ ⟨true, .char32, .char8, ⟨.utf .utf32, true⟩, ⟨.utf .utf8, true⟩, ⟨false, false, false⟩, 3, [65536], [], .insufficient, [], []⟩,
  /- utf32_to_utf8.cpp 329 -/ ⟨true, .char32, .char8, ⟨.utf .utf32, true⟩, ⟨.utf .utf8, true⟩, ⟨false, false, false⟩, 3, [1114111], [], .insufficient, [], []⟩,
  /- utf32_to_utf8.cpp 345 -/ ⟨true, .char32, .char8, ⟨.utf .utf32, true⟩, ⟨.utf .utf8, true⟩, ⟨true, false, false⟩, 2, [55296], [], .insufficient, [], []⟩,
  /- utf32_to_utf8.cpp 353 -/ ⟨true, .char32, .char8, ⟨.utf .utf32, true⟩, ⟨.utf .utf8, true⟩, ⟨true, false, false⟩, 2, [56319], [], .insufficient, [], []⟩] = true := by decide +kernel

set_option maxRecDepth 100000 in
example : allTranscode [
  /- utf32_to_utf8.cpp 361 -/ ⟨true, .char32, .char8, ⟨.utf .utf32, true⟩, ⟨.utf .utf8, true⟩, ⟨true, false, false⟩, 2, [56320], [], .insufficient, [], []⟩,
  /- utf32_to_utf8.cpp 369 -/ ⟨true, .char32, .char8, ⟨.utf .utf32, true⟩, ⟨.utf .utf8, true⟩, ⟨true, false, false⟩, 2, [57343], [], .insufficient, [], []⟩,
  /- utf32_to_utf8.cpp 377 -/ ⟨true, .char32, .char8, ⟨.utf .utf32, true⟩, ⟨.utf .utf8, true⟩, ⟨true, false, false⟩, 2, [57343, 55296, 95], [], .insufficient, [], []⟩,
  /- utf32_to_utf8.cpp 389 -/ ⟨true, .char32, .char8, ⟨.utf .utf32, true⟩, ⟨.utf .utf8, true⟩, ⟨true, true, true⟩, 2, [55296], [], .insufficient, [], []⟩,
  /- utf32_to_utf8.cpp 397 -/ ⟨true, .char32, .char8, ⟨.utf .utf32, true⟩, ⟨.utf .utf8, true⟩, ⟨true, true, true⟩, 2, [56319], [], .insufficient, [], []⟩,
  /- utf32_to_utf8.cpp 405 -/ ⟨true, .char32, .char8, ⟨.utf .utf32, true⟩, ⟨.utf .utf8, true⟩, ⟨true, true, true⟩, 2, [56320], [], .insufficient, [], []⟩,
  /- utf32_to_utf8.cpp 413 -/ ⟨true, .char32, .char8, ⟨.utf .utf32, true⟩, ⟨.utf .utf8, true⟩, ⟨true, true, true⟩, 2, [57343], [], .insufficient, [], []⟩,
  /- utf32_to_utf8.cpp 421 -/ ⟨true, .char32, .char8, ⟨.utf .utf32, true⟩, ⟨.utf .utf8, true⟩, ⟨true, true, true⟩, 2, [57343, 55296, 95], [], .insufficient, [], []⟩,
  /- utf32_to_utf8.cpp 483 -/ ⟨true, .char32, .char8, ⟨.utf .utf32, true⟩, ⟨.utf .utf8, true⟩, ⟨true, false, false⟩, 200, [1114112], [239, 191, 189], .completed, [[1114112]], []⟩,
  /- utf32_to_utf8.cpp 490 -/ ⟨true, .char32, .char8, ⟨.utf .utf32, true⟩, ⟨.utf .utf8, true⟩, ⟨false, true, false⟩, 0, [1114112], [], .invalid, [[1114112]], []⟩,
  /- utf32_to_utf16.cpp 34 -/ ⟨false, .char32, .char16, ⟨.utf .utf32, true⟩, ⟨.utf .utf16, true⟩, ⟨false, false, false⟩, 200, [97, 98], [97, 98], .completed, [], []⟩,
  /- utf32_to_utf16.cpp 41 -/ ⟨false, .char32, .char16, ⟨.utf .utf32, true⟩, ⟨.utf .utf16, true⟩, ⟨false, false, false⟩, 200, [128], [128], .completed, [], []⟩,
  /- utf32_to_utf16.cpp 48 -/ ⟨false, .char32, .char16, ⟨.utf .utf32, true⟩, ⟨.utf .utf16, true⟩, ⟨false, false, false⟩, 200, [2048], [2048], .completed, [], []⟩,
  /- utf32_to_utf16.cpp 55 -/ ⟨false, .char32, .char16, ⟨.utf .utf32, true⟩, ⟨.utf .utf16, true⟩, ⟨false, false, false⟩, 200, [55295], [55295], .completed, [], []⟩,
  /- utf32_to_utf16.cpp 62 -/ ⟨false, .char32, .char16, ⟨.utf .utf32, true⟩, ⟨.utf .utf16, true⟩, ⟨false, false, false⟩, 200, [65536], [55296, 56320], .completed, [], []⟩,
  /- utf32_to_utf16.cpp 69 -/ ⟨false, .char32, .char16, ⟨.utf .utf32, true⟩, ⟨.utf .utf16, true⟩, ⟨false, false, false⟩, 200, [1114111], [56319, 57343], .completed, [], []⟩,
  /- utf32_to_utf16.cpp 90 -/ ⟨false, .char32, .char16, ⟨.utf .utf32, true⟩, ⟨.utf .utf16, true⟩, ⟨false, false, false⟩, 200, [97, 98, 128, 2048, 55295, 57344, 65536, 1114111], [97, 98, 128, 2048, 55295, 57344, 55296, 56320, 56319, 57343], .completed, [], []⟩,
  /- utf32_to_utf16.cpp 94 -/ ⟨false, .char32, .char16, ⟨.utf .utf32, true⟩, ⟨.utf .utf16, true⟩, ⟨false, false, false⟩, 2, [97, 98, 99], [97, 98], .insufficient, [], []⟩,
  /- utf32_to_utf16.cpp 99 -/ ⟨false, .char32, .char16, ⟨.utf .utf32, true⟩, ⟨.utf .utf16, true⟩, ⟨false, false, false⟩, 1, [65536], [], .insufficient, [], []⟩,
  /- utf32_to_utf16.cpp 104 -/ ⟨false, .char32, .char16, ⟨.utf .utf32, true⟩, ⟨.utf .utf16, true⟩, ⟨false, false, false⟩, 0, [65536], [], .insufficient, [], []⟩,
  /- utf32_to_utf16.cpp 109 -/ ⟨false, .char32, .char16, ⟨.utf .utf32, true⟩, ⟨.utf .utf16, true⟩, ⟨false, false, false⟩, 0, [97, 98, 99], [], .insufficient, [], []⟩,
  /- utf32_to_utf16.cpp 116 -/ ⟨false, .char32, .char16, ⟨.utf .utf32, true⟩, ⟨.utf .utf16, true⟩, ⟨true, false, false⟩, 200, [55296], [55296], .completed, [], []⟩,
  /- utf32_to_utf16.cpp 123 -/ ⟨false, .char32, .char16, ⟨.utf .utf32, true⟩, ⟨.utf .utf16, true⟩, ⟨true, false, false⟩, 200, [56319], [56319], .completed, [], []⟩,
  /- utf32_to_utf16.cpp 130 -/ ⟨false, .char32, .char16, ⟨.utf .utf32, true⟩, ⟨.utf .utf16, true⟩, ⟨true, false, false⟩, 200, [56320], [56320], .completed, [], []⟩,
  /- utf32_to_utf16.cpp 137 -/ ⟨false, .char32, .char16, ⟨.utf .utf32, true⟩, ⟨.utf .utf16, true⟩, ⟨true, false, false⟩, 200, [57343], [57343], .completed, [], []⟩,
  /- utf32_to_utf16.cpp 144 -/ ⟨false, .char32, .char16, ⟨.utf .utf32, true⟩, ⟨.utf .utf16, true⟩, ⟨true, false, false⟩, 200, [57343, 55296, 95], [57343, 55296, 95], .completed, [], []⟩,
  /- utf32_to_utf16.cpp 155 -/ ⟨true, .char32, .char16, ⟨.utf .utf32, true⟩, ⟨.utf .utf16, true⟩, ⟨false, false, false⟩, 200, [97, 98], [97, 98], .completed, [], []⟩,
  /- utf32_to_utf16.cpp 162 -/ ⟨true, .char32, .char16, ⟨.utf .utf32, true⟩, ⟨.utf .utf16, true⟩, ⟨false, false, false⟩, 2, [97, 98], [97, 98], .completed, [], []⟩,
  /- utf32_to_utf16.cpp 170 -/ ⟨true, .char32, .char16, ⟨.utf .utf32, true⟩, ⟨.utf .utf16, true⟩, ⟨false, false, false⟩, 200, [128], [128], .completed, [], []⟩,
  /- utf32_to_utf16.cpp 177 -/ ⟨true, .char32, .char16, ⟨.utf .utf32, true⟩, ⟨.utf .utf16, true⟩, ⟨false, false, false⟩, 200, [2048], [2048], .completed, [], []⟩,
  /- utf32_to_utf16.cpp 184 -/ ⟨true, .char32, .char16, ⟨.utf .utf32, true⟩, ⟨.utf .utf16, true⟩, ⟨false, false, false⟩, 200, [55295], [55295], .completed, [], []⟩,
  /- utf32_to_utf16.cpp 191 -/ ⟨true, .char32, .char16, ⟨.utf .utf32, true⟩, ⟨.utf .utf16, true⟩, ⟨false, false, false⟩, 200, [65536], [55296, 56320], .completed, [], []⟩,
  /- utf32_to_utf16.cpp 198 -/ ⟨true, .char32, .char16, ⟨.utf .utf32, true⟩, ⟨.utf .utf16, true⟩, ⟨false, false, false⟩, 200, [1114111], [56319, 57343], .completed, [], []⟩,
  /- utf32_to_utf16.cpp 238 -/ ⟨true, .char32, .char16, ⟨.utf .utf32, true⟩, ⟨.utf .utf16, true⟩, ⟨true, true, true⟩, 200, [55296], [55296], .completed, [], []⟩,
  /- utf32_to_utf16.cpp 245 -/ ⟨true, .char32, .char16, ⟨.utf .utf32, true⟩, ⟨.utf .utf16, true⟩, ⟨true, true, true⟩, 200, [56319], [56319], .completed, [], []⟩,
  /- utf32_to_utf16.cpp 252 -/ ⟨true, .char32, .char16, ⟨.utf .utf32, true⟩, ⟨.utf .utf16, true⟩, ⟨true, true, true⟩, 200, [56320], [56320], .completed, [], []⟩,
  /- utf32_to_utf16.cpp 259 -/ ⟨true, .char32, .char16, ⟨.utf .utf32, true⟩, ⟨.utf .utf16, true⟩, ⟨true, true, true⟩, 200, [57343], [57343], .completed, [], []⟩,
  /- utf32_to_utf16.cpp 266 -/ ⟨true, .char32, .char16, ⟨.utf .utf32, true⟩, ⟨.utf .utf16, true⟩, ⟨true, true, true⟩, 200, [57343, 55296, 95], [57343, 55296, 95], .completed, [], []⟩,
  /- utf32_to_utf16.cpp 279 -/ ⟨true, .char32, .char16, ⟨.utf .utf32, true⟩, ⟨.utf .utf16, true⟩, ⟨false, false, false⟩, 2, [97, 98, 99], [97, 98], .insufficient, [], []⟩,
  /- utf32_to_utf16.cpp 287 -/ ⟨true, .char32, .char16, ⟨.utf .utf32, true⟩, ⟨.utf .utf16, true⟩, ⟨false, false, false⟩, 0, [2048], [], .insufficient, [], []⟩] = true := by decide +kernel

set_option maxRecDepth 100000 in
example : allTranscode [
  /- utf32_to_utf16.cpp 295 -/ ⟨true, .char32, .char16, ⟨.utf .utf32, true⟩, ⟨.utf .utf16, true⟩, ⟨false, false, false⟩, 0, [55295], [], .insufficient, [], []⟩,
  /- utf32_to_utf16.cpp 303 -/ ⟨true, .char32, .char16, ⟨.utf .utf32, true⟩, ⟨.utf .utf16, true⟩, ⟨false, false, false⟩, 1, [65536], [], .insufficient, [], []⟩,
  /- utf32_to_utf16.cpp 311 -/ ⟨true, .char32, .char16, ⟨.utf .utf32, true⟩, ⟨.utf .utf16, true⟩, ⟨false, false, false⟩, 1, [1114111], [], .insufficient, [], []⟩,
  /- utf32_to_utf16.cpp 322 -/ ⟨true, .char32, .char16, ⟨.utf .utf32, true⟩, ⟨.utf .utf16, true⟩, ⟨false, true, false⟩, 2, [97, 98, 99], [97, 98], .insufficient, [], []⟩,
  /- utf32_to_utf16.cpp 340 -/ ⟨true, .char32, .char16, ⟨.utf .utf32, true⟩, ⟨.utf .utf16, true⟩, ⟨true, false, false⟩, 1, [95, 55296], [95], .insufficient, [], []⟩,
  /- utf32_to_utf16.cpp 354 -/ ⟨true, .char32, .char16, ⟨.utf .utf32, true⟩, ⟨.utf .utf16, true⟩, ⟨true, true, true⟩, 1, [95, 55296], [95], .insufficient, [], []⟩,
  /- utf32_to_utf16.cpp 362 -/ ⟨true, .char32, .char16, ⟨.utf .utf32, true⟩, ⟨.utf .utf16, true⟩, ⟨true, true, true⟩, 1, [95, 56319], [95], .insufficient, [], []⟩,
  /- utf32_to_utf16.cpp 370 -/ ⟨true, .char32, .char16, ⟨.utf .utf32, true⟩, ⟨.utf .utf16, true⟩, ⟨true, true, true⟩, 1, [95, 56320], [95], .insufficient, [], []⟩,
  /- utf32_to_utf16.cpp 378 -/ ⟨true, .char32, .char16, ⟨.utf .utf32, true⟩, ⟨.utf .utf16, true⟩, ⟨true, true, true⟩, 1, [95, 57343], [95], .insufficient, [], []⟩,
  /- utf32_to_utf16.cpp 386 -/ ⟨true, .char32, .char16, ⟨.utf .utf32, true⟩, ⟨.utf .utf16, true⟩, ⟨true, true, true⟩, 1, [95, 57343, 55296, 95], [95], .insufficient, [], []⟩,
  /- utf32_to_utf16.cpp 446 -/ ⟨true, .char32, .char16, ⟨.utf .utf32, true⟩, ⟨.utf .utf16, true⟩, ⟨true, false, false⟩, 200, [1114112], [65533], .completed, [[1114112]], []⟩,
  /- utf32_to_utf16.cpp 453 -/ ⟨true, .char32, .char16, ⟨.utf .utf32, true⟩, ⟨.utf .utf16, true⟩, ⟨false, true, false⟩, 0, [1114112], [], .invalid, [[1114112]], []⟩,
  /- single_byte_charsets.cpp 1463 -/ ⟨true, .char32, .char, ⟨.utf .utf32, true⟩, ⟨.sbc 7, true⟩, ⟨false, false, false⟩, 200, [97, 98, 99, 100], [97, 98, 99, 100], .completed, [], []⟩,
  /- single_byte_charsets.cpp 1469 -/ ⟨true, .char32, .char, ⟨.utf .utf32, true⟩, ⟨.sbc 7, true⟩, ⟨false, false, true⟩, 200, [97, 98, 99, 100], [97, 98, 99, 100], .completed, [], []⟩,
  /- single_byte_charsets.cpp 1476 -/ ⟨true, .char32, .char, ⟨.utf .utf32, true⟩, ⟨.sbc 7, true⟩, ⟨true, false, true⟩, 200, [97, 98, 99, 100], [97, 98, 99, 100], .completed, [], []⟩,
  /- single_byte_charsets.cpp 1485 -/ ⟨true, .char32, .char, ⟨.utf .utf32, true⟩, ⟨.sbc 7, true⟩, ⟨false, true, false⟩, 200, [97, 98, 99, 100], [97, 98, 99, 100], .completed, [], []⟩,
  /- single_byte_charsets.cpp 1492 -/ ⟨true, .char32, .char, ⟨.utf .utf32, true⟩, ⟨.sbc 7, true⟩, ⟨true, true, false⟩, 200, [97, 98, 99, 100], [97, 98, 99, 100], .completed, [], []⟩,
  /- single_byte_charsets.cpp 1501 -/ ⟨true, .char32, .char, ⟨.utf .utf32, true⟩, ⟨.sbc 7, true⟩, ⟨false, true, true⟩, 200, [97, 98, 99, 100], [97, 98, 99, 100], .completed, [], []⟩,
  /- single_byte_charsets.cpp 1509 -/ ⟨true, .char32, .char, ⟨.utf .utf32, true⟩, ⟨.sbc 7, true⟩, ⟨true, true, true⟩, 200, [97, 98, 99, 100], [97, 98, 99, 100], .completed, [], []⟩,
  /- single_byte_charsets.cpp 1520 -/ ⟨true, .char32, .char, ⟨.utf .utf32, true⟩, ⟨.sbc 7, true⟩, ⟨false, false, true⟩, 7, [97, 98, 99, 1114112, 100, 101, 102], [97, 98, 99, 63, 100, 101, 102], .completed, [[1114112]], []⟩,
  /- single_byte_charsets.cpp 1530 -/ ⟨true, .char32, .char, ⟨.utf .utf32, true⟩, ⟨.sbc 7, true⟩, ⟨false, false, false⟩, 200, [97, 98, 99, 1114112, 95, 95, 43981, 61, 61], [97, 98, 99, 63, 95, 95, 63, 61, 61], .completed, [[1114112]], [43981]⟩,
  /- single_byte_charsets.cpp 1539 -/ ⟨false, .char32, .char, ⟨.utf .utf32, true⟩, ⟨.sbc 7, true⟩, ⟨false, false, true⟩, 200, [97, 98, 99, 100], [97, 98, 99, 100], .completed, [], []⟩,
  /- single_byte_charsets.cpp 1551 -/ ⟨true, .char32, .char, ⟨.utf .utf32, true⟩, ⟨.sbc 7, true⟩, ⟨false, false, true⟩, 200, [97, 98, 99, 100, 43981, 45, 45], [97, 98, 99, 100], .unsupported, [], [43981]⟩,
  /- single_byte_charsets.cpp 1558 -/ ⟨true, .char32, .char, ⟨.utf .utf32, true⟩, ⟨.sbc 7, true⟩, ⟨false, false, true⟩, 4, [97, 98, 99, 100, 43981, 45, 45], [97, 98, 99, 100], .unsupported, [], [43981]⟩,
  /- single_byte_charsets.cpp 1566 -/ ⟨true, .char32, .char, ⟨.utf .utf32, true⟩, ⟨.sbc 7, true⟩, ⟨false, true, true⟩, 200, [97, 98, 99, 100, 43981, 45, 45], [97, 98, 99, 100], .unsupported, [], [43981]⟩,
  /- single_byte_charsets.cpp 1574 -/ ⟨true, .char32, .char, ⟨.utf .utf32, true⟩, ⟨.sbc 7, true⟩, ⟨false, true, true⟩, 4, [97, 98, 99, 100, 43981, 45, 45], [97, 98, 99, 100], .unsupported, [], [43981]⟩,
  /- single_byte_charsets.cpp 1586 -/ ⟨true, .char32, .char, ⟨.utf .utf32, true⟩, ⟨.sbc 7, true⟩, ⟨false, false, true⟩, 3, [97, 98, 99, 43981, 32], [97, 98, 99], .unsupported, [], [43981]⟩,
  /- single_byte_charsets.cpp 1595 -/ ⟨true, .char32, .char, ⟨.utf .utf32, true⟩, ⟨.sbc 7, true⟩, ⟨false, false, true⟩, 0, [43981, 32], [], .unsupported, [], [43981]⟩,
  /- single_byte_charsets.cpp 1606 -/ ⟨true, .char32, .char, ⟨.utf .utf32, true⟩, ⟨.sbc 7, true⟩, ⟨true, false, true⟩, 200, [97, 98, 99, 65535, 100, 101, 102], [97, 98, 99], .unsupported, [], [65535]⟩,
  /- single_byte_charsets.cpp 1614 -/ ⟨true, .char32, .char, ⟨.utf .utf32, true⟩, ⟨.sbc 7, true⟩, ⟨true, false, true⟩, 3, [97, 98, 99, 65535, 100, 101, 102], [97, 98, 99], .unsupported, [], [65535]⟩,
  /- single_byte_charsets.cpp 1624 -/ ⟨true, .char32, .char, ⟨.utf .utf32, true⟩, ⟨.sbc 7, true⟩, ⟨true, true, true⟩, 200, [97, 98, 99, 65535, 100, 101, 102], [97, 98, 99], .unsupported, [], [65535]⟩,
  /- single_byte_charsets.cpp 1633 -/ ⟨true, .char32, .char, ⟨.utf .utf32, true⟩, ⟨.sbc 7, true⟩, ⟨true, true, true⟩, 200, [97, 98, 99, 65535, 100, 101, 102], [97, 98, 99], .unsupported, [], [65535]⟩,
  /- single_byte_charsets.cpp 1642 -/ ⟨true, .char32, .char, ⟨.utf .utf32, true⟩, ⟨.sbc 7, true⟩, ⟨true, true, true⟩, 3, [97, 98, 99, 65535, 100, 101, 102], [97, 98, 99], .unsupported, [], [65535]⟩,
  /- single_byte_charsets.cpp 1656 -/ ⟨true, .char32, .char, ⟨.utf .utf32, true⟩, ⟨.sbc 7, true⟩, ⟨false, false, true⟩, 200, [97, 98, 99, 1114112, 95, 95, 43981, 61, 61], [97, 98, 99, 63, 95, 95], .unsupported, [[1114112]], [43981]⟩,
  /- single_byte_charsets.cpp 1667 -/ ⟨true, .char32, .char, ⟨.utf .utf32, true⟩, ⟨.sbc 7, true⟩, ⟨false, true, true⟩, 200, [97, 98, 99, 43981, 95, 95, 1114112, 61, 61], [97, 98, 99], .unsupported, [], [43981]⟩,
  /- single_byte_charsets.cpp 1680 -/ ⟨false, .char32, .char, ⟨.utf .utf32, true⟩, ⟨.sbc 7, true⟩, ⟨false, false, true⟩, 200, [97, 98, 99, 100, 43981, 45, 45], [97, 98, 99, 100], .unsupported, [], [43981]⟩,
  /- single_byte_charsets.cpp 1690 -/ ⟨false, .char32, .char, ⟨.utf .utf32, true⟩, ⟨.sbc 7, true⟩, ⟨false, false, true⟩, 3, [97, 98, 99, 43981, 32], [97, 98, 99], .unsupported, [], [43981]⟩,
  /- single_byte_charsets.cpp 1701 -/ ⟨true, .char32, .char, ⟨.utf .utf32, true⟩, ⟨.sbc 7, true⟩, ⟨true, true, true⟩, 200, [97, 98, 99, 65535, 100, 101, 102], [97, 98, 99], .unsupported, [], [65535]⟩,
  /- single_byte_charsets.cpp 1715 -/ ⟨true, .char32, .char, ⟨.utf .utf32, true⟩, ⟨.sbc 7, true⟩, ⟨false, true, false⟩, 200, [97, 98, 99, 1114112, 100, 101, 102], [97, 98, 99], .invalid, [[1114112]], []⟩,
  /- single_byte_charsets.cpp 1722 -/ ⟨true, .char32, .char, ⟨.utf .utf32, true⟩, ⟨.sbc 7, true⟩, ⟨false, true, true⟩, 200, [97, 98, 99, 1114112, 100, 101, 102], [97, 98, 99], .invalid, [[1114112]], []⟩] = true := by decide +kernel

set_option maxRecDepth 100000 in
example : allTranscode [
  /- single_byte_charsets.cpp 1730 -/ ⟨true, .char32, .char, ⟨.utf .utf32, true⟩, ⟨.sbc 7, true⟩, ⟨true, true, true⟩, 200, [97, 98, 99, 1114112, 100, 101, 102], [97, 98, 99], .invalid, [[1114112]], []⟩,
  /- single_byte_charsets.cpp 1742 -/ ⟨true, .char32, .char, ⟨.utf .utf32, true⟩, ⟨.sbc 7, true⟩, ⟨false, true, false⟩, 3, [97, 98, 99, 1114112, 100, 101, 102], [97, 98, 99], .invalid, [[1114112]], []⟩,
  /- single_byte_charsets.cpp 1750 -/ ⟨true, .char32, .char, ⟨.utf .utf32, true⟩, ⟨.sbc 7, true⟩, ⟨false, true, true⟩, 3, [97, 98, 99, 1114112, 100, 101, 102], [97, 98, 99], .invalid, [[1114112]], []⟩,
  /- single_byte_charsets.cpp 1759 -/ ⟨true, .char32, .char, ⟨.utf .utf32, true⟩, ⟨.sbc 7, true⟩, ⟨true, true, true⟩, 3, [97, 98, 99, 1114112, 100, 101, 102], [97, 98, 99], .invalid, [[1114112]], []⟩,
  /- single_byte_charsets.cpp 1773 -/ ⟨true, .char32, .char, ⟨.utf .utf32, true⟩, ⟨.sbc 7, true⟩, ⟨false, true, true⟩, 200, [97, 98, 99, 65535, 100, 101, 102], [97, 98, 99], .invalid, [[65535]], []⟩,
  /- single_byte_charsets.cpp 1784 -/ ⟨true, .char32, .char, ⟨.utf .utf32, true⟩, ⟨.sbc 7, true⟩, ⟨true, true, false⟩, 200, [97, 98, 99, 65535, 100, 101, 102, 1114112, 61, 61], [97, 98, 99, 63, 100, 101, 102], .invalid, [[1114112]], [65535]⟩,
  /- single_byte_charsets.cpp 1794 -/ ⟨true, .char32, .char, ⟨.utf .utf32, true⟩, ⟨.sbc 7, true⟩, ⟨true, true, false⟩, 7, [97, 98, 99, 65535, 100, 101, 102, 1114112, 61, 61], [97, 98, 99, 63, 100, 101, 102], .invalid, [[1114112]], [65535]⟩,
  /- single_byte_charsets.cpp 1808 -/ ⟨true, .char32, .char, ⟨.utf .utf32, true⟩, ⟨.sbc 7, true⟩, ⟨false, true, false⟩, 200, [97, 98, 99, 43981, 95, 95, 1114112, 61, 61], [97, 98, 99, 63, 95, 95], .invalid, [[1114112]], [43981]⟩,
  /- single_byte_charsets.cpp 1819 -/ ⟨true, .char32, .char, ⟨.utf .utf32, true⟩, ⟨.sbc 7, true⟩, ⟨false, true, false⟩, 200, [97, 98, 99, 1114112, 95, 95, 43981, 61, 61], [97, 98, 99], .invalid, [[1114112]], []⟩,
  /- single_byte_charsets.cpp 1830 -/ ⟨true, .char32, .char, ⟨.utf .utf32, true⟩, ⟨.sbc 7, true⟩, ⟨false, true, true⟩, 200, [97, 98, 99, 1114112, 95, 95, 43981, 61, 61], [97, 98, 99], .invalid, [[1114112]], []⟩,
  /- single_byte_charsets.cpp 1844 -/ ⟨true, .char32, .char, ⟨.utf .utf32, true⟩, ⟨.sbc 7, true⟩, ⟨false, false, false⟩, 3, [97, 98, 99, 100], [97, 98, 99], .insufficient, [], []⟩,
  /- single_byte_charsets.cpp 1853 -/ ⟨true, .char32, .char, ⟨.utf .utf32, true⟩, ⟨.sbc 7, true⟩, ⟨false, false, true⟩, 3, [97, 98, 99, 100], [97, 98, 99], .insufficient, [], []⟩,
  /- single_byte_charsets.cpp 1861 -/ ⟨true, .char32, .char, ⟨.utf .utf32, true⟩, ⟨.sbc 7, true⟩, ⟨true, false, true⟩, 3, [97, 98, 99, 100, 101, 102], [97, 98, 99], .insufficient, [], []⟩,
  /- single_byte_charsets.cpp 1870 -/ ⟨true, .char32, .char, ⟨.utf .utf32, true⟩, ⟨.sbc 7, true⟩, ⟨true, true, true⟩, 3, [97, 98, 99, 100, 101, 102], [97, 98, 99], .insufficient, [], []⟩,
  /- single_byte_charsets.cpp 1882 -/ ⟨true, .char32, .char, ⟨.utf .utf32, true⟩, ⟨.sbc 7, true⟩, ⟨false, true, false⟩, 3, [97, 98, 99, 100], [97, 98, 99], .insufficient, [], []⟩,
  /- single_byte_charsets.cpp 1890 -/ ⟨true, .char32, .char, ⟨.utf .utf32, true⟩, ⟨.sbc 7, true⟩, ⟨true, true, false⟩, 4, [97, 98, 65535, 99, 100], [97, 98, 63, 99], .insufficient, [], [65535]⟩,
  /- single_byte_charsets.cpp 1902 -/ ⟨true, .char32, .char, ⟨.utf .utf32, true⟩, ⟨.sbc 7, true⟩, ⟨false, true, true⟩, 3, [97, 98, 99, 100], [97, 98, 99], .insufficient, [], []⟩,
  /- single_byte_charsets.cpp 1914 -/ ⟨true, .char32, .char, ⟨.utf .utf32, true⟩, ⟨.sbc 7, true⟩, ⟨false, false, false⟩, 3, [97, 98, 99, 1114112, 100, 101, 102], [97, 98, 99], .insufficient, [[1114112]], []⟩,
  /- single_byte_charsets.cpp 1921 -/ ⟨true, .char32, .char, ⟨.utf .utf32, true⟩, ⟨.sbc 7, true⟩, ⟨false, false, false⟩, 0, [1114112, 100, 101, 102], [], .insufficient, [[1114112]], []⟩,
  /- single_byte_charsets.cpp 1933 -/ ⟨false, .char32, .char, ⟨.utf .utf32, true⟩, ⟨.sbc 7, true⟩, ⟨false, false, false⟩, 3, [97, 98, 99, 100], [97, 98, 99], .insufficient, [], []⟩,
  /- single_byte_charsets.cpp 1942 -/ ⟨false, .char32, .char, ⟨.utf .utf32, true⟩, ⟨.sbc 7, true⟩, ⟨false, false, true⟩, 3, [97, 98, 99, 100, 43981, 32], [97, 98, 99], .insufficient, [], []⟩,
  /- single_byte_charsets.cpp 1960 -/ ⟨true, .char, .char32, ⟨.sbc 7, true⟩, ⟨.utf .utf32, true⟩, ⟨false, true, false⟩, 200, [97, 98, 99, 100], [97, 98, 99, 100], .completed, [], []⟩,
  /- single_byte_charsets.cpp 1969 -/ ⟨true, .char, .char32, ⟨.sbc 7, true⟩, ⟨.utf .utf32, true⟩, ⟨false, false, false⟩, 3, [97, 98, 99, 100], [97, 98, 99], .insufficient, [], []⟩,
  /- single_byte_charsets.cpp 1976 -/ ⟨true, .char, .char32, ⟨.sbc 7, true⟩, ⟨.utf .utf32, true⟩, ⟨false, true, false⟩, 3, [97, 98, 99, 100], [97, 98, 99], .insufficient, [], []⟩,
  /- single_byte_charsets.cpp 1986 -/ ⟨true, .char, .char32, ⟨.sbc 7, true⟩, ⟨.utf .utf32, true⟩, ⟨false, true, false⟩, 4, [97, 98, 99, 100, 174, 101, 102, 103, 104], [97, 98, 99, 100], .invalid, [[174]], []⟩,
  /- single_byte_charsets.cpp 1996 -/ ⟨true, .char, .char32, ⟨.sbc 7, true⟩, ⟨.utf .utf32, true⟩, ⟨false, false, true⟩, 9, [97, 98, 99, 100, 174, 101, 102, 103, 104], [97, 98, 99, 100, 65533, 101, 102, 103, 104], .completed, [[174]], []⟩,
  /- single_byte_charsets.cpp 2005 -/ ⟨true, .char, .char32, ⟨.sbc 7, true⟩, ⟨.utf .utf32, true⟩, ⟨false, true, false⟩, 4, [97, 98, 99, 100, 210, 32], [97, 98, 99, 100], .invalid, [[210]], []⟩,
  /- single_byte_charsets.cpp 2017 -/ ⟨true, .char, .char32, ⟨.sbc 7, true⟩, ⟨.utf .utf32, true⟩, ⟨false, true, false⟩, 200, [97, 98, 99, 100], [97, 98, 99, 100], .completed, [], []⟩,
  /- single_byte_charsets.cpp 2025 -/ ⟨true, .char, .char32, ⟨.sbc 7, true⟩, ⟨.utf .utf32, true⟩, ⟨false, true, false⟩, 3, [97, 98, 99, 100], [97, 98, 99], .insufficient, [], []⟩,
  /- single_byte_charsets.cpp 2036 -/ ⟨false, .char, .char32, ⟨.sbc 7, true⟩, ⟨.utf .utf32, true⟩, ⟨false, true, false⟩, 200, [97, 98, 99, 100], [97, 98, 99, 100], .completed, [], []⟩,
  /- single_byte_charsets.cpp 2044 -/ ⟨false, .char, .char32, ⟨.sbc 7, true⟩, ⟨.utf .utf32, true⟩, ⟨false, true, false⟩, 3, [97, 98, 99, 100], [97, 98, 99], .insufficient, [], []⟩,
  /- single_byte_charsets.cpp 2061 -/ ⟨true, .char, .char, ⟨.sbc 7, true⟩, ⟨.sbc 7, true⟩, ⟨false, true, false⟩, 200, [97, 98, 99, 100], [97, 98, 99, 100], .completed, [], []⟩,
  /- single_byte_charsets.cpp 2070 -/ ⟨true, .char, .char, ⟨.sbc 7, true⟩, ⟨.sbc 7, true⟩, ⟨false, false, false⟩, 3, [97, 98, 99, 100], [97, 98, 99], .insufficient, [], []⟩,
  /- single_byte_charsets.cpp 2079 -/ ⟨true, .char, .char, ⟨.sbc 7, true⟩, ⟨.sbc 7, true⟩, ⟨false, true, false⟩, 4, [97, 98, 99, 100, 174, 101, 102, 103, 104], [97, 98, 99, 100], .invalid, [[174]], []⟩,
  /- single_byte_charsets.cpp 2089 -/ ⟨true, .char, .char, ⟨.sbc 7, true⟩, ⟨.sbc 7, true⟩, ⟨false, false, true⟩, 9, [97, 98, 99, 100, 174, 101, 102, 103, 104], [97, 98, 99, 100, 63, 101, 102, 103, 104], .completed, [[174]], []⟩,
  /- single_byte_charsets.cpp 2101 -/ ⟨false, .char, .char, ⟨.sbc 7, true⟩, ⟨.sbc 7, true⟩, ⟨false, false, false⟩, 200, [97, 98, 99, 100, 101], [97, 98, 99, 100, 101], .completed, [], []⟩,
  /- single_byte_charsets.cpp 2106 -/ ⟨false, .char, .char, ⟨.sbc 7, true⟩, ⟨.sbc 7, true⟩, ⟨false, false, false⟩, 3, [97, 98, 99, 100, 101], [97, 98, 99], .insufficient, [], []⟩,
  /- single_byte_charsets.cpp 2112 -/ ⟨true, .char32, .char, ⟨.utf .utf32, true⟩, ⟨.sbc 7, true⟩, ⟨false, false, true⟩, 4, [97, 98, 99, 100, 43981, 45, 45], [97, 98, 99, 100], .unsupported, [], [43981]⟩,
  /- single_byte_charsets.cpp 1463 -/ ⟨true, .char32, .char, ⟨.utf .utf32, true⟩, ⟨.sbc 1, true⟩, ⟨false, false, false⟩, 200, [97, 98, 99, 100], [97, 98, 99, 100], .completed, [], []⟩,
  /- single_byte_charsets.cpp 1469 -/ ⟨true, .char32, .char, ⟨.utf .utf32, true⟩, ⟨.sbc 1, true⟩, ⟨false, false, true⟩, 200, [97, 98, 99, 100], [97, 98, 99, 100], .completed, [], []⟩] = true := by decide +kernel

set_option maxRecDepth 100000 in
example : allTranscode [
  /- single_byte_charsets.cpp 1476 -/ ⟨true, .char32, .char, ⟨.utf .utf32, true⟩, ⟨.sbc 1, true⟩, ⟨true, false, true⟩, 200, [97, 98, 99, 100], [97, 98, 99, 100], .completed, [], []⟩,
  /- single_byte_charsets.cpp 1485 -/ ⟨true, .char32, .char, ⟨.utf .utf32, true⟩, ⟨.sbc 1, true⟩, ⟨false, true, false⟩, 200, [97, 98, 99, 100], [97, 98, 99, 100], .completed, [], []⟩,
  /- single_byte_charsets.cpp 1492 -/ ⟨true, .char32, .char, ⟨.utf .utf32, true⟩, ⟨.sbc 1, true⟩, ⟨true, true, false⟩, 200, [97, 98, 99, 100], [97, 98, 99, 100], .completed, [], []⟩,
  /- single_byte_charsets.cpp 1501 -/ ⟨true, .char32, .char, ⟨.utf .utf32, true⟩, ⟨.sbc 1, true⟩, ⟨false, true, true⟩, 200, [97, 98, 99, 100], [97, 98, 99, 100], .completed, [], []⟩,
  /- single_byte_charsets.cpp 1509 -/ ⟨true, .char32, .char, ⟨.utf .utf32, true⟩, ⟨.sbc 1, true⟩, ⟨true, true, true⟩, 200, [97, 98, 99, 100], [97, 98, 99, 100], .completed, [], []⟩,
  /- single_byte_charsets.cpp 1520 -/ ⟨true, .char32, .char, ⟨.utf .utf32, true⟩, ⟨.sbc 1, true⟩, ⟨false, false, true⟩, 7, [97, 98, 99, 1114112, 100, 101, 102], [97, 98, 99, 63, 100, 101, 102], .completed, [[1114112]], []⟩,
  /- single_byte_charsets.cpp 1530 -/ ⟨true, .char32, .char, ⟨.utf .utf32, true⟩, ⟨.sbc 1, true⟩, ⟨false, false, false⟩, 200, [97, 98, 99, 1114112, 95, 95, 43981, 61, 61], [97, 98, 99, 63, 95, 95, 63, 61, 61], .completed, [[1114112]], [43981]⟩,
  /- single_byte_charsets.cpp 1539 -/ ⟨false, .char32, .char, ⟨.utf .utf32, true⟩, ⟨.sbc 1, true⟩, ⟨false, false, true⟩, 200, [97, 98, 99, 100], [97, 98, 99, 100], .completed, [], []⟩,
  /- single_byte_charsets.cpp 1551 -/ ⟨true, .char32, .char, ⟨.utf .utf32, true⟩, ⟨.sbc 1, true⟩, ⟨false, false, true⟩, 200, [97, 98, 99, 100, 43981, 45, 45], [97, 98, 99, 100], .unsupported, [], [43981]⟩,
  /- single_byte_charsets.cpp 1558 -/ ⟨true, .char32, .char, ⟨.utf .utf32, true⟩, ⟨.sbc 1, true⟩, ⟨false, false, true⟩, 4, [97, 98, 99, 100, 43981, 45, 45], [97, 98, 99, 100], .unsupported, [], [43981]⟩,
  /- single_byte_charsets.cpp 1566 -/ ⟨true, .char32, .char, ⟨.utf .utf32, true⟩, ⟨.sbc 1, true⟩, ⟨false, true, true⟩, 200, [97, 98, 99, 100, 43981, 45, 45], [97, 98, 99, 100], .unsupported, [], [43981]⟩,
  /- single_byte_charsets.cpp 1574 -/ ⟨true, .char32, .char, ⟨.utf .utf32, true⟩, ⟨.sbc 1, true⟩, ⟨false, true, true⟩, 4, [97, 98, 99, 100, 43981, 45, 45], [97, 98, 99, 100], .unsupported, [], [43981]⟩,
  /- single_byte_charsets.cpp 1586 -/ ⟨true, .char32, .char, ⟨.utf .utf32, true⟩, ⟨.sbc 1, true⟩, ⟨false, false, true⟩, 3, [97, 98, 99, 43981, 32], [97, 98, 99], .unsupported, [], [43981]⟩,
  /- single_byte_charsets.cpp 1595 -/ ⟨true, .char32, .char, ⟨.utf .utf32, true⟩, ⟨.sbc 1, true⟩, ⟨false, false, true⟩, 0, [43981, 32], [], .unsupported, [], [43981]⟩,
  /- single_byte_charsets.cpp 1606 -/ ⟨true, .char32, .char, ⟨.utf .utf32, true⟩, ⟨.sbc 1, true⟩, ⟨true, false, true⟩, 200, [97, 98, 99, 65535, 100, 101, 102], [97, 98, 99], .unsupported, [], [65535]⟩,
  /- single_byte_charsets.cpp 1614 -/ ⟨true, .char32, .char, ⟨.utf .utf32, true⟩, ⟨.sbc 1, true⟩, ⟨true, false, true⟩, 3, [97, 98, 99, 65535, 100, 101, 102], [97, 98, 99], .unsupported, [], [65535]⟩,
  /- single_byte_charsets.cpp 1624 -/ ⟨true, .char32, .char, ⟨.utf .utf32, true⟩, ⟨.sbc 1, true⟩, ⟨true, true, true⟩, 200, [97, 98, 99, 65535, 100, 101, 102], [97, 98, 99], .unsupported, [], [65535]⟩,
  /- single_byte_charsets.cpp 1633 -/ ⟨true, .char32, .char, ⟨.utf .utf32, true⟩, ⟨.sbc 1, true⟩, ⟨true, true, true⟩, 200, [97, 98, 99, 65535, 100, 101, 102], [97, 98, 99], .unsupported, [], [65535]⟩,
  /- single_byte_charsets.cpp 1642 -/ ⟨true, .char32, .char, ⟨.utf .utf32, true⟩, ⟨.sbc 1, true⟩, ⟨true, true, true⟩, 3, [97, 98, 99, 65535, 100, 101, 102], [97, 98, 99], .unsupported, [], [65535]⟩,
  /- single_byte_charsets.cpp 1656 -/ ⟨true, .char32, .char, ⟨.utf .utf32, true⟩, ⟨.sbc 1, true⟩, ⟨false, false, true⟩, 200, [97, 98, 99, 1114112, 95, 95, 43981, 61, 61], [97, 98, 99, 63, 95, 95], .unsupported, [[1114112]], [43981]⟩,
  /- single_byte_charsets.cpp 1667 -/ ⟨true, .char32, .char, ⟨.utf .utf32, true⟩, ⟨.sbc 1, true⟩, ⟨false, true, true⟩, 200, [97, 98, 99, 43981, 95, 95, 1114112, 61, 61], [97, 98, 99], .unsupported, [], [43981]⟩,
  /- single_byte_charsets.cpp 1680 -/ ⟨false, .char32, .char, ⟨.utf .utf32, true⟩, ⟨.sbc 1, true⟩, ⟨false, false, true⟩, 200, [97, 98, 99, 100, 43981, 45, 45], [97, 98, 99, 100], .unsupported, [], [43981]⟩,
  /- single_byte_charsets.cpp 1690 -/ ⟨false, .char32, .char, ⟨.utf .utf32, true⟩, ⟨.sbc 1, true⟩, ⟨false, false, true⟩, 3, [97, 98, 99, 43981, 32], [97, 98, 99], .unsupported, [], [43981]⟩,
  /- single_byte_charsets.cpp 1701 -/ ⟨true, .char32, .char, ⟨.utf .utf32, true⟩, ⟨.sbc 1, true⟩, ⟨true, true, true⟩, 200, [97, 98, 99, 65535, 100, 101, 102], [97, 98, 99], .unsupported, [], [65535]⟩,
  /- single_byte_charsets.cpp 1715 -/ ⟨true, .char32, .char, ⟨.utf .utf32, true⟩, ⟨.sbc 1, true⟩, ⟨false, true, false⟩, 200, [97, 98, 99, 1114112, 100, 101, 102], [97, 98, 99], .invalid, [[1114112]], []⟩,
  /- single_byte_charsets.cpp 1722 -/ ⟨true, .char32, .char, ⟨.utf .utf32, true⟩, ⟨.sbc 1, true⟩, ⟨false, true, true⟩, 200, [97, 98, 99, 1114112, 100, 101, 102], [97, 98, 99], .invalid, [[1114112]], []⟩,
  /- single_byte_charsets.cpp 1730 -/ ⟨true, .char32, .char, ⟨.utf .utf32, true⟩, ⟨.sbc 1, true⟩, ⟨true, true, true⟩, 200, [97, 98, 99, 1114112, 100, 101, 102], [97, 98, 99], .invalid, [[1114112]], []⟩,
  /- single_byte_charsets.cpp 1742 -/ ⟨true, .char32, .char, ⟨.utf .utf32, true⟩, ⟨.sbc 1, true⟩, ⟨false, true, false⟩, 3, [97, 98, 99, 1114112, 100, 101, 102], [97, 98, 99], .invalid, [[1114112]], []⟩,
  /- single_byte_charsets.cpp 1750 -/ ⟨true, .char32, .char, ⟨.utf .utf32, true⟩, ⟨.sbc 1, true⟩, ⟨false, true, true⟩, 3, [97, 98, 99, 1114112, 100, 101, 102], [97, 98, 99], .invalid, [[1114112]], []⟩,
  /- single_byte_charsets.cpp 1759 -/ ⟨true, .char32, .char, ⟨.utf .utf32, true⟩, ⟨.sbc 1, true⟩, ⟨true, true, true⟩, 3, [97, 98, 99, 1114112, 100, 101, 102], [97, 98, 99], .invalid, [[1114112]], []⟩,
  /- single_byte_charsets.cpp 1773 -/ ⟨true, .char32, .char, ⟨.utf .utf32, true⟩, ⟨.sbc 1, true⟩, ⟨false, true, true⟩, 200, [97, 98, 99, 65535, 100, 101, 102], [97, 98, 99], .invalid, [[65535]], []⟩,
  /- single_byte_charsets.cpp 1784 -/ ⟨true, .char32, .char, ⟨.utf .utf32, true⟩, ⟨.sbc 1, true⟩, ⟨true, true, false⟩, 200, [97, 98, 99, 65535, 100, 101, 102, 1114112, 61, 61], [97, 98, 99, 63, 100, 101, 102], .invalid, [[1114112]], [65535]⟩,
  /- single_byte_charsets.cpp 1794 -/ ⟨true, .char32, .char, ⟨.utf .utf32, true⟩, ⟨.sbc 1, true⟩, ⟨true, true, false⟩, 7, [97, 98, 99, 65535, 100, 101, 102, 1114112, 61, 61], [97, 98, 99, 63, 100, 101, 102], .invalid, [[1114112]], [65535]⟩,
  /- single_byte_charsets.cpp 1808 -/ ⟨true, .char32, .char, ⟨.utf .utf32, true⟩, ⟨.sbc 1, true⟩, ⟨false, true, false⟩, 200, [97, 98, 99, 43981, 95, 95, 1114112, 61, 61], [97, 98, 99, 63, 95, 95], .invalid, [[1114112]], [43981]⟩,
  /- single_byte_charsets.cpp 1819 -/ ⟨true, .char32, .char, ⟨.utf .utf32, true⟩, ⟨.sbc 1, true⟩, ⟨false, true, false⟩, 200, [97, 98, 99, 1114112, 95, 95, 43981, 61, 61], [97, 98, 99], .invalid, [[1114112]], []⟩,
  /- single_byte_charsets.cpp 1830 -/ ⟨true, .char32, .char, ⟨.utf .utf32, true⟩, ⟨.sbc 1, true⟩, ⟨false, true, true⟩, 200, [97, 98, 99, 1114112, 95, 95, 43981, 61, 61], [97, 98, 99], .invalid, [[1114112]], []⟩,
  /- single_byte_charsets.cpp 1844 -/ ⟨true, .char32, .char, ⟨.utf .utf32, true⟩, ⟨.sbc 1, true⟩, ⟨false, false, false⟩, 3, [97, 98, 99, 100], [97, 98, 99], .insufficient, [], []⟩,
  /- single_byte_charsets.cpp 1853 -/ ⟨true, .char32, .char, ⟨.utf .utf32, true⟩, ⟨.sbc 1, true⟩, ⟨false, false, true⟩, 3, [97, 98, 99, 100], [97, 98, 99], .insufficient, [], []⟩,
  /- single_byte_charsets.cpp 1861 -/ ⟨true, .char32, .char, ⟨.utf .utf32, true⟩, ⟨.sbc 1, true⟩, ⟨true, false, true⟩, 3, [97, 98, 99, 100, 101, 102], [97, 98, 99], .insufficient, [], []⟩,
  /- single_byte_charsets.cpp 1870 -/ ⟨true, .char32, .char, ⟨.utf .utf32, true⟩, ⟨.sbc 1, true⟩, ⟨true, true, true⟩, 3, [97, 98, 99, 100, 101, 102], [97, 98, 99], .insufficient, [], []⟩] = true := by decide +kernel

set_option maxRecDepth 100000 in
example : allTranscode [
  /- single_byte_charsets.cpp 1882 -/ ⟨true, .char32, .char, ⟨.utf .utf32, true⟩, ⟨.sbc 1, true⟩, ⟨false, true, false⟩, 3, [97, 98, 99, 100], [97, 98, 99], .insufficient, [], []⟩,
  /- single_byte_charsets.cpp 1890 -/ ⟨true, .char32, .char, ⟨.utf .utf32, true⟩, ⟨.sbc 1, true⟩, ⟨true, true, false⟩, 4, [97, 98, 65535, 99, 100], [97, 98, 63, 99], .insufficient, [], [65535]⟩,
  /- single_byte_charsets.cpp 1902 -/ ⟨true, .char32, .char, ⟨.utf .utf32, true⟩, ⟨.sbc 1, true⟩, ⟨false, true, true⟩, 3, [97, 98, 99, 100], [97, 98, 99], .insufficient, [], []⟩,
  /- single_byte_charsets.cpp 1914 -/ ⟨true, .char32, .char, ⟨.utf .utf32, true⟩, ⟨.sbc 1, true⟩, ⟨false, false, false⟩, 3, [97, 98, 99, 1114112, 100, 101, 102], [97, 98, 99], .insufficient, [[1114112]], []⟩,
  /- single_byte_charsets.cpp 1921 -/ ⟨true, .char32, .char, ⟨.utf .utf32, true⟩, ⟨.sbc 1, true⟩, ⟨false, false, false⟩, 0, [1114112, 100, 101, 102], [], .insufficient, [[1114112]], []⟩,
  /- single_byte_charsets.cpp 1933 -/ ⟨false, .char32, .char, ⟨.utf .utf32, true⟩, ⟨.sbc 1, true⟩, ⟨false, false, false⟩, 3, [97, 98, 99, 100], [97, 98, 99], .insufficient, [], []⟩,
  /- single_byte_charsets.cpp 1942 -/ ⟨false, .char32, .char, ⟨.utf .utf32, true⟩, ⟨.sbc 1, true⟩, ⟨false, false, true⟩, 3, [97, 98, 99, 100, 43981, 32], [97, 98, 99], .insufficient, [], []⟩] = true := by decide +kernel

end Strf.Transcode
