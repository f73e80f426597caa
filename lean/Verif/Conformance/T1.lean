import Verif.Conformance.Base
/-! Generated by tools/conformance.py from /repo/tests: see Verif/Conformance/Base.lean. Tests of the model, not proofs. -/
namespace Strf.Program
open Strf.Format

set_option maxRecDepth 100000 in
example : allPrint [
  /- input_int.cpp 14 -/ (.char, ⟨[], [], [.ptr [] 2748], false⟩, [48, 120, 97, 98, 99]),
  /- input_int.cpp 15 -/ (.char, ⟨[], [], [.ptr [.set 46 524288 .right] 2748], false⟩, [46, 46, 46, 48, 120, 97, 98, 99]),
  /- input_int.cpp 16 -/ (.char, ⟨[], [], [.alignedJoin ⟨32, .left, 655360⟩ [.ptr [.set 46 524288 .right] 2748]], false⟩, [46, 46, 46, 48, 120, 97, 98, 99, 32, 32]),
  /- input_int.cpp 17 -/ (.char, ⟨[[.facet .lettercase (.lettercase .mixed)]], [], [.ptr [.set 46 524288 .right] 2748], false⟩, [46, 46, 46, 48, 120, 65, 66, 67]),
  /- input_int.cpp 18 -/ (.char, ⟨[[.constrained (fun t => t = .pointer) (.facet .lettercase (.lettercase .upper))]], [], [.ptr [.set 46 524288 .right] 2748], false⟩, [46, 46, 46, 48, 88, 65, 66, 67]),
  /- input_int.cpp 199 -/ (.char, ⟨[], [], [.int ⟨.int, true⟩ [] 0], false⟩, [48]),
  /- input_int.cpp 200 -/ (.char16, ⟨[], [], [.int ⟨.int, true⟩ [] 0], false⟩, [48]),
  /- input_int.cpp 201 -/ (.char32, ⟨[], [], [.int ⟨.int, true⟩ [] 0], false⟩, [48]),
  /- input_int.cpp 202 -/ ((.wchar true), ⟨[], [], [.int ⟨.int, true⟩ [] 0], false⟩, [48]),
  /- input_int.cpp 203 -/ (.char, ⟨[], [], [.int ⟨.int, false⟩ [] 0], false⟩, [48]),
  /- input_int.cpp 204 -/ (.char16, ⟨[], [], [.int ⟨.int, false⟩ [] 0], false⟩, [48]),
  /- input_int.cpp 205 -/ (.char32, ⟨[], [], [.int ⟨.int, false⟩ [] 0], false⟩, [48]),
  /- input_int.cpp 206 -/ ((.wchar true), ⟨[], [], [.int ⟨.int, false⟩ [] 0], false⟩, [48]),
  /- input_int.cpp 207 -/ (.char, ⟨[], [], [.int ⟨.int, true⟩ [] 123], false⟩, [49, 50, 51]),
  /- input_int.cpp 208 -/ (.char16, ⟨[], [], [.int ⟨.int, true⟩ [] 123], false⟩, [49, 50, 51]),
  /- input_int.cpp 209 -/ (.char32, ⟨[], [], [.int ⟨.int, true⟩ [] 123], false⟩, [49, 50, 51]),
  /- input_int.cpp 210 -/ ((.wchar true), ⟨[], [], [.int ⟨.int, true⟩ [] 123], false⟩, [49, 50, 51]),
  /- input_int.cpp 211 -/ (.char, ⟨[], [], [.int ⟨.int, true⟩ [] (-123)], false⟩, [45, 49, 50, 51]),
  /- input_int.cpp 212 -/ (.char16, ⟨[], [], [.int ⟨.int, true⟩ [] (-123)], false⟩, [45, 49, 50, 51]),
  /- input_int.cpp 213 -/ (.char32, ⟨[], [], [.int ⟨.int, true⟩ [] (-123)], false⟩, [45, 49, 50, 51]),
  /- input_int.cpp 214 -/ ((.wchar true), ⟨[], [], [.int ⟨.int, true⟩ [] (-123)], false⟩, [45, 49, 50, 51]),
  /- input_int.cpp 216 -/ (.char, ⟨[], [], [.int ⟨.int, true⟩ [] 0], false⟩, [48]),
  /- input_int.cpp 217 -/ (.char16, ⟨[], [], [.int ⟨.int, true⟩ [] 0], false⟩, [48]),
  /- input_int.cpp 218 -/ (.char32, ⟨[], [], [.int ⟨.int, true⟩ [] 0], false⟩, [48]),
  /- input_int.cpp 219 -/ ((.wchar true), ⟨[], [], [.int ⟨.int, true⟩ [] 0], false⟩, [48]),
  /- input_int.cpp 220 -/ (.char, ⟨[], [], [.int ⟨.int, false⟩ [] 0], false⟩, [48]),
  /- input_int.cpp 221 -/ (.char16, ⟨[], [], [.int ⟨.int, false⟩ [] 0], false⟩, [48]),
  /- input_int.cpp 222 -/ (.char32, ⟨[], [], [.int ⟨.int, false⟩ [] 0], false⟩, [48]),
  /- input_int.cpp 223 -/ ((.wchar true), ⟨[], [], [.int ⟨.int, false⟩ [] 0], false⟩, [48]),
  /- input_int.cpp 224 -/ (.char, ⟨[], [], [.int ⟨.int, true⟩ [] 123], false⟩, [49, 50, 51]),
  /- input_int.cpp 225 -/ (.char16, ⟨[], [], [.int ⟨.int, true⟩ [] 123], false⟩, [49, 50, 51]),
  /- input_int.cpp 226 -/ (.char32, ⟨[], [], [.int ⟨.int, true⟩ [] 123], false⟩, [49, 50, 51]),
  /- input_int.cpp 227 -/ ((.wchar true), ⟨[], [], [.int ⟨.int, true⟩ [] 123], false⟩, [49, 50, 51]),
  /- input_int.cpp 228 -/ (.char, ⟨[], [], [.int ⟨.int, true⟩ [] (-123)], false⟩, [45, 49, 50, 51]),
  /- input_int.cpp 229 -/ (.char16, ⟨[], [], [.int ⟨.int, true⟩ [] (-123)], false⟩, [45, 49, 50, 51]),
  /- input_int.cpp 230 -/ (.char32, ⟨[], [], [.int ⟨.int, true⟩ [] (-123)], false⟩, [45, 49, 50, 51]),
  /- input_int.cpp 231 -/ ((.wchar true), ⟨[], [], [.int ⟨.int, true⟩ [] (-123)], false⟩, [45, 49, 50, 51]),
  /- input_int.cpp 233 -/ (.char, ⟨[], [], [.int ⟨.int, true⟩ [] 2147483647], false⟩, [50, 49, 52, 55, 52, 56, 51, 54, 52, 55]),
  /- input_int.cpp 234 -/ (.char, ⟨[], [], [.int ⟨.int, true⟩ [] (-2147483648)], false⟩, [45, 50, 49, 52, 55, 52, 56, 51, 54, 52, 56]),
  /- input_int.cpp 235 -/ (.char, ⟨[], [], [.int ⟨.int, false⟩ [] 4294967295], false⟩, [52, 50, 57, 52, 57, 54, 55, 50, 57, 53])] = true := by decide +kernel

set_option maxRecDepth 100000 in
example : allPrint [
  /- input_int.cpp 236 -/ (.char, ⟨[], [], [.int ⟨.int, true⟩ [] (-2147483648)], false⟩, [45, 50, 49, 52, 55, 52, 56, 51, 54, 52, 56]),
  /- input_int.cpp 237 -/ (.char, ⟨[], [], [.int ⟨.int, false⟩ [] 4294967295], false⟩, [52, 50, 57, 52, 57, 54, 55, 50, 57, 53]),
  /- input_int.cpp 239 -/ ((.wchar true), ⟨[], [], [.int ⟨.int, true⟩ [] 2147483647], false⟩, [50, 49, 52, 55, 52, 56, 51, 54, 52, 55]),
  /- input_int.cpp 240 -/ ((.wchar true), ⟨[], [], [.int ⟨.int, true⟩ [] (-2147483648)], false⟩, [45, 50, 49, 52, 55, 52, 56, 51, 54, 52, 56]),
  /- input_int.cpp 241 -/ ((.wchar true), ⟨[], [], [.int ⟨.int, false⟩ [] 4294967295], false⟩, [52, 50, 57, 52, 57, 54, 55, 50, 57, 53]),
  /- input_int.cpp 242 -/ ((.wchar true), ⟨[], [], [.int ⟨.int, true⟩ [] (-2147483648)], false⟩, [45, 50, 49, 52, 55, 52, 56, 51, 54, 52, 56]),
  /- input_int.cpp 243 -/ ((.wchar true), ⟨[], [], [.int ⟨.int, false⟩ [] 4294967295], false⟩, [52, 50, 57, 52, 57, 54, 55, 50, 57, 53]),
  /- input_int.cpp 245 -/ (.char, ⟨[], [], [.int ⟨.int, true⟩ [.hex] 15], false⟩, [102]),
  /- input_int.cpp 246 -/ (.char, ⟨[], [], [.int ⟨.int, true⟩ [.hex] 255], false⟩, [102, 102]),
  /- input_int.cpp 247 -/ (.char, ⟨[], [], [.int ⟨.int, true⟩ [.hex] 65535], false⟩, [102, 102, 102, 102]),
  /- input_int.cpp 248 -/ (.char, ⟨[], [], [.int ⟨.long true, true⟩ [.hex] 1048575], false⟩, [102, 102, 102, 102, 102]),
  /- input_int.cpp 249 -/ (.char, ⟨[], [], [.int ⟨.longLong, true⟩ [.hex] 68719476735], false⟩, [102, 102, 102, 102, 102, 102, 102, 102, 102]),
  /- input_int.cpp 250 -/ (.char, ⟨[], [], [.int ⟨.longLong, false⟩ [.hex] 18446744073709551615], false⟩, [102, 102, 102, 102, 102, 102, 102, 102, 102, 102, 102, 102, 102, 102, 102, 102]),
  /- input_int.cpp 251 -/ (.char, ⟨[], [], [.int ⟨.longLong, false⟩ [.hex, .star] 18446744073709551615], false⟩, [48, 120, 102, 102, 102, 102, 102, 102, 102, 102, 102, 102, 102, 102, 102, 102, 102, 102]),
  /- input_int.cpp 252 -/ (.char, ⟨[], [], [.int ⟨.int, true⟩ [.hex] 0], false⟩, [48]),
  /- input_int.cpp 253 -/ (.char, ⟨[], [], [.int ⟨.int, true⟩ [.hex] 1], false⟩, [49]),
  /- input_int.cpp 254 -/ (.char, ⟨[], [], [.int ⟨.int, true⟩ [.hex] 16], false⟩, [49, 48]),
  /- input_int.cpp 255 -/ (.char, ⟨[], [], [.int ⟨.int, true⟩ [.hex] 256], false⟩, [49, 48, 48]),
  /- input_int.cpp 256 -/ (.char, ⟨[], [], [.int ⟨.long true, true⟩ [.hex] 65536], false⟩, [49, 48, 48, 48, 48]),
  /- input_int.cpp 257 -/ (.char, ⟨[], [], [.int ⟨.longLong, true⟩ [.hex] 4294967296], false⟩, [49, 48, 48, 48, 48, 48, 48, 48, 48]),
  /- input_int.cpp 258 -/ (.char, ⟨[], [], [.int ⟨.longLong, true⟩ [.hex] 1152921504606846976], false⟩, [49, 48, 48, 48, 48, 48, 48, 48, 48, 48, 48, 48, 48, 48, 48, 48]),
  /- input_int.cpp 259 -/ (.char, ⟨[], [], [.int ⟨.int, true⟩ [.hex] (-2147483648)], false⟩, [56, 48, 48, 48, 48, 48, 48, 48]),
  /- input_int.cpp 261 -/ (.char, ⟨[], [], [.int ⟨.int, true⟩ [.oct] 7], false⟩, [55]),
  /- input_int.cpp 262 -/ (.char, ⟨[], [], [.int ⟨.int, true⟩ [.oct] 63], false⟩, [55, 55]),
  /- input_int.cpp 263 -/ (.char, ⟨[], [], [.int ⟨.int, true⟩ [.oct] 4095], false⟩, [55, 55, 55, 55]),
  /- input_int.cpp 264 -/ (.char, ⟨[], [], [.int ⟨.long true, true⟩ [.oct] 134217727], false⟩, [55, 55, 55, 55, 55, 55, 55, 55, 55]),
  /- input_int.cpp 265 -/ (.char, ⟨[], [], [.int ⟨.longLong, true⟩ [.oct] 281474976710655], false⟩, [55, 55, 55, 55, 55, 55, 55, 55, 55, 55, 55, 55, 55, 55, 55, 55]),
  /- input_int.cpp 266 -/ (.char, ⟨[], [], [.int ⟨.longLong, true⟩ [.oct] 9223372036854775807], false⟩, [55, 55, 55, 55, 55, 55, 55, 55, 55, 55, 55, 55, 55, 55, 55, 55, 55, 55, 55, 55, 55]),
  /- input_int.cpp 267 -/ (.char, ⟨[], [], [.int ⟨.longLong, true⟩ [.oct, .star] 9223372036854775807], false⟩, [48, 55, 55, 55, 55, 55, 55, 55, 55, 55, 55, 55, 55, 55, 55, 55, 55, 55, 55, 55, 55, 55]),
  /- input_int.cpp 269 -/ (.char, ⟨[], [], [.int ⟨.int, true⟩ [.oct] 0], false⟩, [48]),
  /- input_int.cpp 270 -/ (.char, ⟨[], [], [.int ⟨.int, true⟩ [.oct] 1], false⟩, [49]),
  /- input_int.cpp 271 -/ (.char, ⟨[], [], [.int ⟨.int, true⟩ [.oct] 8], false⟩, [49, 48]),
  /- input_int.cpp 272 -/ (.char, ⟨[], [], [.int ⟨.int, true⟩ [.oct] 64], false⟩, [49, 48, 48]),
  /- input_int.cpp 273 -/ (.char, ⟨[], [], [.int ⟨.int, true⟩ [.oct] 4096], false⟩, [49, 48, 48, 48, 48]),
  /- input_int.cpp 274 -/ (.char, ⟨[], [], [.int ⟨.long true, true⟩ [.oct] 16777216], false⟩, [49, 48, 48, 48, 48, 48, 48, 48, 48]),
  /- input_int.cpp 275 -/ (.char, ⟨[], [], [.int ⟨.longLong, true⟩ [.oct] 281474976710656], false⟩, [49, 48, 48, 48, 48, 48, 48, 48, 48, 48, 48, 48, 48, 48, 48, 48, 48]),
  /- input_int.cpp 276 -/ (.char, ⟨[], [], [.int ⟨.longLong, false⟩ [.oct] 9223372036854775808], false⟩, [49, 48, 48, 48, 48, 48, 48, 48, 48, 48, 48, 48, 48, 48, 48, 48, 48, 48, 48, 48, 48, 48]),
  /- input_int.cpp 277 -/ (.char, ⟨[], [], [.int ⟨.longLong, false⟩ [.oct] 18446744073709551615], false⟩, [49, 55, 55, 55, 55, 55, 55, 55, 55, 55, 55, 55, 55, 55, 55, 55, 55, 55, 55, 55, 55, 55]),
  /- input_int.cpp 279 -/ (.char, ⟨[], [], [.int ⟨.int, true⟩ [.bin] 0], false⟩, [48]),
  /- input_int.cpp 280 -/ (.char, ⟨[], [], [.int ⟨.int, true⟩ [.bin] 1], false⟩, [49])] = true := by decide +kernel

set_option maxRecDepth 100000 in
example : allPrint [
  /- input_int.cpp 281 -/ (.char, ⟨[], [], [.int ⟨.int, true⟩ [.bin] 3], false⟩, [49, 49]),
  /- input_int.cpp 282 -/ (.char, ⟨[], [], [.int ⟨.int, true⟩ [.bin] 7], false⟩, [49, 49, 49]),
  /- input_int.cpp 283 -/ (.char, ⟨[], [], [.int ⟨.int, true⟩ [.bin] 15], false⟩, [49, 49, 49, 49]),
  /- input_int.cpp 284 -/ (.char, ⟨[], [], [.int ⟨.int, true⟩ [.bin] 255], false⟩, [49, 49, 49, 49, 49, 49, 49, 49]),
  /- input_int.cpp 285 -/ (.char, ⟨[], [], [.int ⟨.longLong, false⟩ [.bin] 12297829382473034410], false⟩, [49, 48, 49, 48, 49, 48, 49, 48, 49, 48, 49, 48, 49, 48, 49, 48, 49, 48, 49, 48, 49, 48, 49, 48, 49, 48, 49, 48, 49, 48, 49, 48, 49, 48, 49, 48, 49, 48, 49, 48, 49, 48, 49, 48, 49, 48, 49, 48, 49, 48, 49, 48, 49, 48, 49, 48, 49, 48, 49, 48, 49, 48, 49, 48]),
  /- input_int.cpp 287 -/ (.char, ⟨[], [], [.int ⟨.longLong, false⟩ [.bin, .star] 12297829382473034410], false⟩, [48, 98, 49, 48, 49, 48, 49, 48, 49, 48, 49, 48, 49, 48, 49, 48, 49, 48, 49, 48, 49, 48, 49, 48, 49, 48, 49, 48, 49, 48, 49, 48, 49, 48, 49, 48, 49, 48, 49, 48, 49, 48, 49, 48, 49, 48, 49, 48, 49, 48, 49, 48, 49, 48, 49, 48, 49, 48, 49, 48, 49, 48, 49, 48, 49, 48]),
  /- input_int.cpp 295 -/ (.char, ⟨[], [], [.int ⟨.longLong, false⟩ [.bin] 18446744073709551615], false⟩, [49, 49, 49, 49, 49, 49, 49, 49, 49, 49, 49, 49, 49, 49, 49, 49, 49, 49, 49, 49, 49, 49, 49, 49, 49, 49, 49, 49, 49, 49, 49, 49, 49, 49, 49, 49, 49, 49, 49, 49, 49, 49, 49, 49, 49, 49, 49, 49, 49, 49, 49, 49, 49, 49, 49, 49, 49, 49, 49, 49, 49, 49, 49, 49]),
  /- input_int.cpp 298 -/ (.char, ⟨[], [], [.int ⟨.int, true⟩ [] 9], false⟩, [57]),
  /- input_int.cpp 299 -/ (.char, ⟨[], [], [.int ⟨.int, true⟩ [] 99], false⟩, [57, 57]),
  /- input_int.cpp 300 -/ (.char, ⟨[], [], [.int ⟨.int, true⟩ [] 9999], false⟩, [57, 57, 57, 57]),
  /- input_int.cpp 301 -/ (.char, ⟨[], [], [.int ⟨.long true, true⟩ [] 99999999], false⟩, [57, 57, 57, 57, 57, 57, 57, 57]),
  /- input_int.cpp 302 -/ (.char, ⟨[], [], [.int ⟨.longLong, true⟩ [] 999999999999999999], false⟩, [57, 57, 57, 57, 57, 57, 57, 57, 57, 57, 57, 57, 57, 57, 57, 57, 57, 57]),
  /- input_int.cpp 303 -/ (.char, ⟨[], [], [.int ⟨.int, true⟩ [] (-9)], false⟩, [45, 57]),
  /- input_int.cpp 304 -/ (.char, ⟨[], [], [.int ⟨.int, true⟩ [] (-99)], false⟩, [45, 57, 57]),
  /- input_int.cpp 305 -/ (.char, ⟨[], [], [.int ⟨.int, true⟩ [] (-9999)], false⟩, [45, 57, 57, 57, 57]),
  /- input_int.cpp 306 -/ (.char, ⟨[], [], [.int ⟨.long true, true⟩ [] (-99999999)], false⟩, [45, 57, 57, 57, 57, 57, 57, 57, 57]),
  /- input_int.cpp 307 -/ (.char, ⟨[], [], [.int ⟨.longLong, true⟩ [] (-999999999999999999)], false⟩, [45, 57, 57, 57, 57, 57, 57, 57, 57, 57, 57, 57, 57, 57, 57, 57, 57, 57, 57]),
  /- input_int.cpp 308 -/ (.char, ⟨[], [], [.int ⟨.int, true⟩ [] 0], false⟩, [48]),
  /- input_int.cpp 309 -/ (.char, ⟨[], [], [.int ⟨.int, true⟩ [] 1], false⟩, [49]),
  /- input_int.cpp 310 -/ (.char, ⟨[], [], [.int ⟨.int, true⟩ [] 10], false⟩, [49, 48]),
  /- input_int.cpp 311 -/ (.char, ⟨[], [], [.int ⟨.int, true⟩ [] 100], false⟩, [49, 48, 48]),
  /- input_int.cpp 312 -/ (.char, ⟨[], [], [.int ⟨.int, true⟩ [] 10000], false⟩, [49, 48, 48, 48, 48]),
  /- input_int.cpp 313 -/ (.char, ⟨[], [], [.int ⟨.long true, true⟩ [] 100000000], false⟩, [49, 48, 48, 48, 48, 48, 48, 48, 48]),
  /- input_int.cpp 314 -/ (.char, ⟨[], [], [.int ⟨.longLong, true⟩ [] 1000000000000000000], false⟩, [49, 48, 48, 48, 48, 48, 48, 48, 48, 48, 48, 48, 48, 48, 48, 48, 48, 48, 48]),
  /- input_int.cpp 315 -/ (.char, ⟨[], [], [.int ⟨.longLong, false⟩ [] 10000000000000000000], false⟩, [49, 48, 48, 48, 48, 48, 48, 48, 48, 48, 48, 48, 48, 48, 48, 48, 48, 48, 48, 48]),
  /- input_int.cpp 316 -/ (.char, ⟨[], [], [.int ⟨.int, true⟩ [] (-1)], false⟩, [45, 49]),
  /- input_int.cpp 317 -/ (.char, ⟨[], [], [.int ⟨.int, true⟩ [] (-10)], false⟩, [45, 49, 48]),
  /- input_int.cpp 318 -/ (.char, ⟨[], [], [.int ⟨.int, true⟩ [] (-100)], false⟩, [45, 49, 48, 48]),
  /- input_int.cpp 319 -/ (.char, ⟨[], [], [.int ⟨.int, true⟩ [] (-10000)], false⟩, [45, 49, 48, 48, 48, 48]),
  /- input_int.cpp 320 -/ (.char, ⟨[], [], [.int ⟨.long true, true⟩ [] (-100000000)], false⟩, [45, 49, 48, 48, 48, 48, 48, 48, 48, 48]),
  /- input_int.cpp 321 -/ (.char, ⟨[], [], [.int ⟨.longLong, true⟩ [] (-1000000000000000000)], false⟩, [45, 49, 48, 48, 48, 48, 48, 48, 48, 48, 48, 48, 48, 48, 48, 48, 48, 48, 48, 48]),
  /- input_int.cpp 325 -/ (.char, ⟨[], [], [.alignedJoin ⟨46, .right, 655360⟩ [.int ⟨.int, true⟩ [.dec, .plus] 123]], false⟩, [46, 46, 46, 46, 46, 46, 43, 49, 50, 51]),
  /- input_int.cpp 326 -/ (.char, ⟨[], [], [.alignedJoin ⟨46, .right, 655360⟩ [.int ⟨.int, true⟩ [.dec, .plus] (-123)]], false⟩, [46, 46, 46, 46, 46, 46, 45, 49, 50, 51]),
  /- input_int.cpp 327 -/ (.char, ⟨[], [], [.alignedJoin ⟨46, .right, 655360⟩ [.int ⟨.int, true⟩ [.dec] (-123)]], false⟩, [46, 46, 46, 46, 46, 46, 45, 49, 50, 51]),
  /- input_int.cpp 329 -/ (.char, ⟨[], [], [.int ⟨.long true, true⟩ [.align (.set 95 983040 .right)] 1234567890], false⟩, [95, 95, 95, 95, 95, 49, 50, 51, 52, 53, 54, 55, 56, 57, 48]),
  /- input_int.cpp 331 -/ (.char, ⟨[], [], [.int ⟨.int, true⟩ [.align (.right 655360)] 123], false⟩, [32, 32, 32, 32, 32, 32, 32, 49, 50, 51]),
  /- input_int.cpp 332 -/ (.char, ⟨[], [], [.int ⟨.int, true⟩ [.align (.set 46 655360 .right)] 123], false⟩, [46, 46, 46, 46, 46, 46, 46, 49, 50, 51]),
  /- input_int.cpp 333 -/ (.char, ⟨[], [], [.int ⟨.int, true⟩ [.align (.set 46 655360 .right)] (-123)], false⟩, [46, 46, 46, 46, 46, 46, 45, 49, 50, 51]),
  /- input_int.cpp 334 -/ (.char, ⟨[], [], [.int ⟨.int, true⟩ [.align (.set 46 655360 .right)] 0], false⟩, [46, 46, 46, 46, 46, 46, 46, 46, 46, 48]),
  /- input_int.cpp 335 -/ (.char, ⟨[], [], [.int ⟨.int, false⟩ [.align (.set 46 655360 .right)] 123], false⟩, [46, 46, 46, 46, 46, 46, 46, 49, 50, 51])] = true := by decide +kernel

set_option maxRecDepth 100000 in
example : allPrint [
  /- input_int.cpp 337 -/ (.char, ⟨[], [], [.int ⟨.int, true⟩ [.align (.set 46 655360 .right), .plus] 123], false⟩, [46, 46, 46, 46, 46, 46, 43, 49, 50, 51]),
  /- input_int.cpp 338 -/ (.char, ⟨[], [], [.int ⟨.int, true⟩ [.align (.set 46 655360 .right), .plus] (-123)], false⟩, [46, 46, 46, 46, 46, 46, 45, 49, 50, 51]),
  /- input_int.cpp 339 -/ (.char, ⟨[], [], [.int ⟨.int, true⟩ [.align (.set 46 655360 .right), .plus] 0], false⟩, [46, 46, 46, 46, 46, 46, 46, 46, 43, 48]),
  /- input_int.cpp 340 -/ (.char, ⟨[], [], [.int ⟨.int, false⟩ [.align (.set 46 655360 .right)] 123], false⟩, [46, 46, 46, 46, 46, 46, 46, 49, 50, 51]),
  /- input_int.cpp 342 -/ (.char, ⟨[], [], [.int ⟨.short, true⟩ [.align (.set 46 1441792 .right), .plus] (-32768)], false⟩, [46, 46, 46, 46, 46, 46, 46, 46, 46, 46, 46, 46, 46, 46, 46, 46, 45, 51, 50, 55, 54, 56]),
  /- input_int.cpp 343 -/ (.char, ⟨[], [], [.int ⟨.int, true⟩ [.align (.set 46 1441792 .right), .plus] (-2147483648)], false⟩, [46, 46, 46, 46, 46, 46, 46, 46, 46, 46, 46, 45, 50, 49, 52, 55, 52, 56, 51, 54, 52, 56]),
  /- input_int.cpp 344 -/ (.char, ⟨[], [], [.int ⟨.long true, true⟩ [.align (.set 46 1441792 .right), .plus] (-9223372036854775808)], false⟩, [46, 46, 45, 57, 50, 50, 51, 51, 55, 50, 48, 51, 54, 56, 53, 52, 55, 55, 53, 56, 48, 56]),
  /- input_int.cpp 346 -/ (.char, ⟨[], [], [.int ⟨.int, true⟩ [.align (.set 46 655360 .left)] 123], false⟩, [49, 50, 51, 46, 46, 46, 46, 46, 46, 46]),
  /- input_int.cpp 347 -/ (.char, ⟨[], [], [.int ⟨.int, true⟩ [.align (.set 46 655360 .left), .plus] 123], false⟩, [43, 49, 50, 51, 46, 46, 46, 46, 46, 46]),
  /- input_int.cpp 348 -/ (.char, ⟨[], [], [.int ⟨.int, true⟩ [.align (.set 46 655360 .left), .plus] (-123)], false⟩, [45, 49, 50, 51, 46, 46, 46, 46, 46, 46]),
  /- input_int.cpp 349 -/ (.char, ⟨[], [], [.int ⟨.int, true⟩ [.align (.set 46 655360 .left), .plus] 0], false⟩, [43, 48, 46, 46, 46, 46, 46, 46, 46, 46]),
  /- input_int.cpp 350 -/ (.char, ⟨[], [], [.int ⟨.int, true⟩ [.align (.set 46 655360 .left)] 0], false⟩, [48, 46, 46, 46, 46, 46, 46, 46, 46, 46]),
  /- input_int.cpp 351 -/ (.char, ⟨[], [], [.int ⟨.int, false⟩ [.align (.set 46 655360 .left)] 123], false⟩, [49, 50, 51, 46, 46, 46, 46, 46, 46, 46]),
  /- input_int.cpp 353 -/ (.char, ⟨[], [], [.int ⟨.int, true⟩ [.align (.set 46 655360 .center)] 123], false⟩, [46, 46, 46, 49, 50, 51, 46, 46, 46, 46]),
  /- input_int.cpp 354 -/ (.char, ⟨[], [], [.int ⟨.int, true⟩ [.align (.set 46 655360 .center), .plus] 123], false⟩, [46, 46, 46, 43, 49, 50, 51, 46, 46, 46]),
  /- input_int.cpp 355 -/ (.char, ⟨[], [], [.int ⟨.int, true⟩ [.align (.set 46 655360 .center), .plus] (-123)], false⟩, [46, 46, 46, 45, 49, 50, 51, 46, 46, 46]),
  /- input_int.cpp 356 -/ (.char, ⟨[], [], [.int ⟨.int, true⟩ [.align (.set 46 655360 .center), .plus] 0], false⟩, [46, 46, 46, 46, 43, 48, 46, 46, 46, 46]),
  /- input_int.cpp 357 -/ (.char, ⟨[], [], [.int ⟨.int, true⟩ [.align (.set 46 655360 .center)] 0], false⟩, [46, 46, 46, 46, 48, 46, 46, 46, 46, 46]),
  /- input_int.cpp 358 -/ (.char, ⟨[], [], [.int ⟨.int, false⟩ [.align (.set 46 655360 .center)] 123], false⟩, [46, 46, 46, 49, 50, 51, 46, 46, 46, 46]),
  /- input_int.cpp 361 -/ (.char, ⟨[], [], [.int ⟨.int, true⟩ [.align (.set 46 655360 .right), .pad0 1] 1], false⟩, [46, 46, 46, 46, 46, 46, 46, 46, 46, 49]),
  /- input_int.cpp 362 -/ (.char, ⟨[], [], [.int ⟨.int, true⟩ [.align (.set 46 655360 .right), .pad0 6] 123], false⟩, [46, 46, 46, 46, 48, 48, 48, 49, 50, 51]),
  /- input_int.cpp 363 -/ (.char, ⟨[], [], [.int ⟨.int, true⟩ [.align (.set 46 655360 .right), .pad0 3] 123], false⟩, [46, 46, 46, 46, 46, 46, 46, 49, 50, 51]),
  /- input_int.cpp 364 -/ (.char, ⟨[], [], [.int ⟨.int, true⟩ [.align (.set 46 655360 .right), .pad0 6, .plus] 123], false⟩, [46, 46, 46, 46, 43, 48, 48, 49, 50, 51]),
  /- input_int.cpp 365 -/ (.char, ⟨[], [], [.int ⟨.int, true⟩ [.align (.set 46 655360 .right), .pad0 6] (-123)], false⟩, [46, 46, 46, 46, 45, 48, 48, 49, 50, 51]),
  /- input_int.cpp 366 -/ (.char, ⟨[], [], [.int ⟨.int, true⟩ [.align (.set 46 655360 .right), .pad0 4, .plus] 123], false⟩, [46, 46, 46, 46, 46, 46, 43, 49, 50, 51]),
  /- input_int.cpp 367 -/ (.char, ⟨[], [], [.int ⟨.int, true⟩ [.align (.set 46 655360 .right), .pad0 4] (-123)], false⟩, [46, 46, 46, 46, 46, 46, 45, 49, 50, 51]),
  /- input_int.cpp 368 -/ (.char, ⟨[], [], [.int ⟨.int, true⟩ [.align (.set 46 655360 .right), .pad0 6, .plus] 0], false⟩, [46, 46, 46, 46, 43, 48, 48, 48, 48, 48]),
  /- input_int.cpp 369 -/ (.char, ⟨[], [], [.int ⟨.int, true⟩ [.align (.set 46 655360 .right), .pad0 2, .plus] 0], false⟩, [46, 46, 46, 46, 46, 46, 46, 46, 43, 48]),
  /- input_int.cpp 370 -/ (.char, ⟨[], [], [.int ⟨.int, false⟩ [.align (.set 46 655360 .right), .pad0 3] 123], false⟩, [46, 46, 46, 46, 46, 46, 46, 49, 50, 51]),
  /- input_int.cpp 371 -/ (.char, ⟨[], [], [.int ⟨.int, false⟩ [.align (.set 46 655360 .right), .pad0 6] 123], false⟩, [46, 46, 46, 46, 48, 48, 48, 49, 50, 51]),
  /- input_int.cpp 373 -/ (.char, ⟨[], [], [.int ⟨.int, false⟩ [.align (.set 46 655360 .right), .pad0 9] 123], false⟩, [46, 48, 48, 48, 48, 48, 48, 49, 50, 51]),
  /- input_int.cpp 374 -/ (.char, ⟨[], [], [.int ⟨.int, true⟩ [.align (.set 46 655360 .right), .pad0 9] 123], false⟩, [46, 48, 48, 48, 48, 48, 48, 49, 50, 51]),
  /- input_int.cpp 375 -/ (.char, ⟨[], [], [.int ⟨.int, false⟩ [.align (.set 46 655360 .right), .pad0 10] 123], false⟩, [48, 48, 48, 48, 48, 48, 48, 49, 50, 51]),
  /- input_int.cpp 376 -/ (.char, ⟨[], [], [.int ⟨.int, true⟩ [.align (.set 46 655360 .right), .pad0 10] 123], false⟩, [48, 48, 48, 48, 48, 48, 48, 49, 50, 51]),
  /- input_int.cpp 377 -/ (.char, ⟨[], [], [.int ⟨.int, false⟩ [.align (.set 46 655360 .right), .pad0 11] 123], false⟩, [48, 48, 48, 48, 48, 48, 48, 48, 49, 50, 51]),
  /- input_int.cpp 378 -/ (.char, ⟨[], [], [.int ⟨.int, true⟩ [.align (.set 46 655360 .right), .pad0 11] 123], false⟩, [48, 48, 48, 48, 48, 48, 48, 48, 49, 50, 51]),
  /- input_int.cpp 381 -/ (.char, ⟨[[.facet .lettercase (.lettercase .upper)]], [], [.int ⟨.longLong, true⟩ [.hex, .star] 1311768467294899695], false⟩, [48, 88, 49, 50, 51, 52, 53, 54, 55, 56, 57, 48, 65, 66, 67, 68, 69, 70]),
  /- input_int.cpp 382 -/ (.char, ⟨[[.facet .lettercase (.lettercase .mixed)]], [], [.int ⟨.longLong, true⟩ [.hex, .star] 1311768467294899695], false⟩, [48, 120, 49, 50, 51, 52, 53, 54, 55, 56, 57, 48, 65, 66, 67, 68, 69, 70]),
  /- input_int.cpp 383 -/ (.char, ⟨[[.facet .lettercase (.lettercase .lower)]], [], [.int ⟨.longLong, true⟩ [.hex, .star] 1311768467294899695], false⟩, [48, 120, 49, 50, 51, 52, 53, 54, 55, 56, 57, 48, 97, 98, 99, 100, 101, 102]),
  /- input_int.cpp 386 -/ (.char, ⟨[[.facet .lettercase (.lettercase .upper)]], [], [.int ⟨.int, true⟩ [.bin, .star] 7], false⟩, [48, 66, 49, 49, 49])] = true := by decide +kernel

set_option maxRecDepth 100000 in
example : allPrint [
  /- input_int.cpp 387 -/ (.char, ⟨[[.facet .lettercase (.lettercase .mixed)]], [], [.int ⟨.int, true⟩ [.bin, .star] 7], false⟩, [48, 98, 49, 49, 49]),
  /- input_int.cpp 388 -/ (.char, ⟨[[.facet .lettercase (.lettercase .lower)]], [], [.int ⟨.int, true⟩ [.bin, .star] 7], false⟩, [48, 98, 49, 49, 49]),
  /- input_int.cpp 391 -/ (.char, ⟨[], [], [.int ⟨.int, true⟩ [.hex, .align (.right 655360)] 170], false⟩, [32, 32, 32, 32, 32, 32, 32, 32, 97, 97]),
  /- input_int.cpp 392 -/ (.char, ⟨[], [], [.int ⟨.int, true⟩ [.hex, .star, .align (.right 655360)] 170], false⟩, [32, 32, 32, 32, 32, 32, 48, 120, 97, 97]),
  /- input_int.cpp 393 -/ (.char, ⟨[], [], [.int ⟨.int, true⟩ [.hex, .align (.left 655360)] 170], false⟩, [97, 97, 32, 32, 32, 32, 32, 32, 32, 32]),
  /- input_int.cpp 394 -/ (.char, ⟨[], [], [.int ⟨.int, true⟩ [.hex, .star, .align (.left 655360)] 170], false⟩, [48, 120, 97, 97, 32, 32, 32, 32, 32, 32]),
  /- input_int.cpp 395 -/ (.char, ⟨[], [], [.int ⟨.int, true⟩ [.hex, .align (.center 655360)] 170], false⟩, [32, 32, 32, 32, 97, 97, 32, 32, 32, 32]),
  /- input_int.cpp 396 -/ (.char, ⟨[], [], [.int ⟨.int, true⟩ [.hex, .star, .align (.center 655360)] 170], false⟩, [32, 32, 32, 48, 120, 97, 97, 32, 32, 32]),
  /- input_int.cpp 398 -/ (.char, ⟨[], [], [.int ⟨.int, true⟩ [.hex, .p 5, .align (.right 655360)] 170], false⟩, [32, 32, 32, 32, 32, 48, 48, 48, 97, 97]),
  /- input_int.cpp 399 -/ (.char, ⟨[], [], [.int ⟨.int, true⟩ [.hex, .p 5, .star, .align (.right 655360)] 170], false⟩, [32, 32, 32, 48, 120, 48, 48, 48, 97, 97]),
  /- input_int.cpp 400 -/ (.char, ⟨[], [], [.int ⟨.int, true⟩ [.hex, .p 5, .align (.left 655360)] 170], false⟩, [48, 48, 48, 97, 97, 32, 32, 32, 32, 32]),
  /- input_int.cpp 401 -/ (.char, ⟨[], [], [.int ⟨.int, true⟩ [.hex, .p 5, .star, .align (.left 655360)] 170], false⟩, [48, 120, 48, 48, 48, 97, 97, 32, 32, 32]),
  /- input_int.cpp 402 -/ (.char, ⟨[], [], [.int ⟨.int, true⟩ [.hex, .p 5, .align (.center 655360)] 170], false⟩, [32, 32, 48, 48, 48, 97, 97, 32, 32, 32]),
  /- input_int.cpp 403 -/ (.char, ⟨[], [], [.int ⟨.int, true⟩ [.hex, .p 5, .star, .align (.center 655360)] 170], false⟩, [32, 48, 120, 48, 48, 48, 97, 97, 32, 32]),
  /- input_int.cpp 434 -/ (.char, ⟨[], [], [.int ⟨.int, true⟩ [.bin, .align (.right 655360)] 3], false⟩, [32, 32, 32, 32, 32, 32, 32, 32, 49, 49]),
  /- input_int.cpp 435 -/ (.char, ⟨[], [], [.int ⟨.int, true⟩ [.bin, .star, .align (.right 655360)] 3], false⟩, [32, 32, 32, 32, 32, 32, 48, 98, 49, 49]),
  /- input_int.cpp 436 -/ (.char, ⟨[], [], [.int ⟨.int, true⟩ [.bin, .align (.left 655360)] 3], false⟩, [49, 49, 32, 32, 32, 32, 32, 32, 32, 32]),
  /- input_int.cpp 437 -/ (.char, ⟨[], [], [.int ⟨.int, true⟩ [.bin, .star, .align (.left 655360)] 3], false⟩, [48, 98, 49, 49, 32, 32, 32, 32, 32, 32]),
  /- input_int.cpp 438 -/ (.char, ⟨[], [], [.int ⟨.int, true⟩ [.bin, .align (.center 655360)] 3], false⟩, [32, 32, 32, 32, 49, 49, 32, 32, 32, 32]),
  /- input_int.cpp 439 -/ (.char, ⟨[], [], [.int ⟨.int, true⟩ [.bin, .star, .align (.center 655360)] 3], false⟩, [32, 32, 32, 48, 98, 49, 49, 32, 32, 32]),
  /- input_int.cpp 441 -/ (.char, ⟨[], [], [.int ⟨.int, true⟩ [.bin, .p 5, .align (.right 655360)] 3], false⟩, [32, 32, 32, 32, 32, 48, 48, 48, 49, 49]),
  /- input_int.cpp 442 -/ (.char, ⟨[], [], [.int ⟨.int, true⟩ [.bin, .p 5, .star, .align (.right 655360)] 3], false⟩, [32, 32, 32, 48, 98, 48, 48, 48, 49, 49]),
  /- input_int.cpp 443 -/ (.char, ⟨[], [], [.int ⟨.int, true⟩ [.bin, .p 5, .align (.left 655360)] 3], false⟩, [48, 48, 48, 49, 49, 32, 32, 32, 32, 32]),
  /- input_int.cpp 444 -/ (.char, ⟨[], [], [.int ⟨.int, true⟩ [.bin, .p 5, .star, .align (.left 655360)] 3], false⟩, [48, 98, 48, 48, 48, 49, 49, 32, 32, 32]),
  /- input_int.cpp 445 -/ (.char, ⟨[], [], [.int ⟨.int, true⟩ [.bin, .p 5, .align (.center 655360)] 3], false⟩, [32, 32, 48, 48, 48, 49, 49, 32, 32, 32]),
  /- input_int.cpp 446 -/ (.char, ⟨[], [], [.int ⟨.int, true⟩ [.bin, .p 5, .star, .align (.center 655360)] 3], false⟩, [32, 48, 98, 48, 48, 48, 49, 49, 32, 32]),
  /- input_int.cpp 449 -/ (.char, ⟨[], [], [.int ⟨.int, true⟩ [.bin, .pad0 2, .align (.right 655360)] 3], false⟩, [32, 32, 32, 32, 32, 32, 32, 32, 49, 49]),
  /- input_int.cpp 450 -/ (.char, ⟨[], [], [.int ⟨.int, true⟩ [.bin, .pad0 4, .star, .align (.right 655360)] 3], false⟩, [32, 32, 32, 32, 32, 32, 48, 98, 49, 49]),
  /- input_int.cpp 451 -/ (.char, ⟨[], [], [.int ⟨.int, true⟩ [.bin, .pad0 3, .align (.right 655360)] 3], false⟩, [32, 32, 32, 32, 32, 32, 32, 48, 49, 49]),
  /- input_int.cpp 452 -/ (.char, ⟨[], [], [.int ⟨.int, true⟩ [.bin, .pad0 5, .star, .align (.right 655360)] 3], false⟩, [32, 32, 32, 32, 32, 48, 98, 48, 49, 49]),
  /- input_int.cpp 453 -/ (.char, ⟨[], [], [.int ⟨.int, true⟩ [.bin, .pad0 10, .align (.right 655360)] 3], false⟩, [48, 48, 48, 48, 48, 48, 48, 48, 49, 49]),
  /- input_int.cpp 454 -/ (.char, ⟨[], [], [.int ⟨.int, true⟩ [.bin, .pad0 10, .star, .align (.right 655360)] 3], false⟩, [48, 98, 48, 48, 48, 48, 48, 48, 49, 49]),
  /- input_int.cpp 455 -/ (.char, ⟨[], [], [.int ⟨.int, true⟩ [.bin, .pad0 11, .align (.right 655360)] 3], false⟩, [48, 48, 48, 48, 48, 48, 48, 48, 48, 49, 49]),
  /- input_int.cpp 456 -/ (.char, ⟨[], [], [.int ⟨.int, true⟩ [.bin, .pad0 11, .star, .align (.right 655360)] 3], false⟩, [48, 98, 48, 48, 48, 48, 48, 48, 48, 49, 49]),
  /- input_int.cpp 459 -/ (.char, ⟨[], [], [.int ⟨.int, true⟩ [.bin, .p 2, .align (.right 655360)] 3], false⟩, [32, 32, 32, 32, 32, 32, 32, 32, 49, 49]),
  /- input_int.cpp 460 -/ (.char, ⟨[], [], [.int ⟨.int, true⟩ [.bin, .p 1, .star, .align (.right 655360)] 3], false⟩, [32, 32, 32, 32, 32, 32, 48, 98, 49, 49]),
  /- input_int.cpp 461 -/ (.char, ⟨[], [], [.int ⟨.int, true⟩ [.bin, .p 3, .align (.right 655360)] 3], false⟩, [32, 32, 32, 32, 32, 32, 32, 48, 49, 49]),
  /- input_int.cpp 462 -/ (.char, ⟨[], [], [.int ⟨.int, true⟩ [.bin, .p 3, .star, .align (.right 655360)] 3], false⟩, [32, 32, 32, 32, 32, 48, 98, 48, 49, 49]),
  /- input_int.cpp 463 -/ (.char, ⟨[], [], [.int ⟨.int, true⟩ [.bin, .p 10, .align (.right 655360)] 3], false⟩, [48, 48, 48, 48, 48, 48, 48, 48, 49, 49]),
  /- input_int.cpp 464 -/ (.char, ⟨[], [], [.int ⟨.int, true⟩ [.bin, .p 8, .star, .align (.right 655360)] 3], false⟩, [48, 98, 48, 48, 48, 48, 48, 48, 49, 49])] = true := by decide +kernel

set_option maxRecDepth 100000 in
example : allPrint [
  /- input_int.cpp 465 -/ (.char, ⟨[], [], [.int ⟨.int, true⟩ [.bin, .p 11, .align (.right 655360)] 3], false⟩, [48, 48, 48, 48, 48, 48, 48, 48, 48, 49, 49]),
  /- input_int.cpp 466 -/ (.char, ⟨[], [], [.int ⟨.int, true⟩ [.bin, .p 9, .star, .align (.right 655360)] 3], false⟩, [48, 98, 48, 48, 48, 48, 48, 48, 48, 49, 49]),
  /- input_int.cpp 469 -/ (.char, ⟨[], [], [.int ⟨.int, true⟩ [.bin, .pad0 2, .p 2, .align (.right 655360)] 3], false⟩, [32, 32, 32, 32, 32, 32, 32, 32, 49, 49]),
  /- input_int.cpp 470 -/ (.char, ⟨[], [], [.int ⟨.int, true⟩ [.bin, .pad0 2, .p 3, .align (.right 655360)] 3], false⟩, [32, 32, 32, 32, 32, 32, 32, 48, 49, 49]),
  /- input_int.cpp 471 -/ (.char, ⟨[], [], [.int ⟨.int, true⟩ [.bin, .pad0 3, .p 2, .align (.right 655360)] 3], false⟩, [32, 32, 32, 32, 32, 32, 32, 48, 49, 49]),
  /- input_int.cpp 472 -/ (.char, ⟨[], [], [.int ⟨.int, true⟩ [.bin, .pad0 3, .p 4, .align (.right 655360)] 3], false⟩, [32, 32, 32, 32, 32, 32, 48, 48, 49, 49]),
  /- input_int.cpp 473 -/ (.char, ⟨[], [], [.int ⟨.int, true⟩ [.bin, .pad0 4, .p 3, .align (.right 655360)] 3], false⟩, [32, 32, 32, 32, 32, 32, 48, 48, 49, 49]),
  /- input_int.cpp 476 -/ (.char, ⟨[], [], [.int ⟨.int, true⟩ [.oct, .align (.right 655360)] 63], false⟩, [32, 32, 32, 32, 32, 32, 32, 32, 55, 55]),
  /- input_int.cpp 477 -/ (.char, ⟨[], [], [.int ⟨.int, true⟩ [.oct, .star, .align (.right 655360)] 63], false⟩, [32, 32, 32, 32, 32, 32, 32, 48, 55, 55]),
  /- input_int.cpp 478 -/ (.char, ⟨[], [], [.int ⟨.int, true⟩ [.oct, .align (.left 655360)] 63], false⟩, [55, 55, 32, 32, 32, 32, 32, 32, 32, 32]),
  /- input_int.cpp 479 -/ (.char, ⟨[], [], [.int ⟨.int, true⟩ [.oct, .star, .align (.left 655360)] 63], false⟩, [48, 55, 55, 32, 32, 32, 32, 32, 32, 32]),
  /- input_int.cpp 480 -/ (.char, ⟨[], [], [.int ⟨.int, true⟩ [.oct, .align (.center 655360)] 63], false⟩, [32, 32, 32, 32, 55, 55, 32, 32, 32, 32]),
  /- input_int.cpp 481 -/ (.char, ⟨[], [], [.int ⟨.int, true⟩ [.oct, .star, .align (.center 655360)] 63], false⟩, [32, 32, 32, 48, 55, 55, 32, 32, 32, 32]),
  /- input_int.cpp 483 -/ (.char, ⟨[], [], [.int ⟨.int, true⟩ [.oct, .p 4, .align (.right 655360)] 63], false⟩, [32, 32, 32, 32, 32, 32, 48, 48, 55, 55]),
  /- input_int.cpp 484 -/ (.char, ⟨[], [], [.int ⟨.int, true⟩ [.oct, .p 4, .star, .align (.right 655360)] 63], false⟩, [32, 32, 32, 32, 32, 32, 48, 48, 55, 55]),
  /- input_int.cpp 485 -/ (.char, ⟨[], [], [.int ⟨.int, true⟩ [.oct, .p 4, .align (.right 655360)] 668], false⟩, [32, 32, 32, 32, 32, 32, 49, 50, 51, 52]),
  /- input_int.cpp 486 -/ (.char, ⟨[], [], [.int ⟨.int, true⟩ [.oct, .p 4, .star, .align (.right 655360)] 668], false⟩, [32, 32, 32, 32, 32, 48, 49, 50, 51, 52]),
  /- input_int.cpp 489 -/ (.char, ⟨[], [], [.int ⟨.int, true⟩ [.oct, .pad0 2, .align (.right 655360)] 10], false⟩, [32, 32, 32, 32, 32, 32, 32, 32, 49, 50]),
  /- input_int.cpp 490 -/ (.char, ⟨[], [], [.int ⟨.int, true⟩ [.oct, .pad0 3, .align (.right 655360)] 10], false⟩, [32, 32, 32, 32, 32, 32, 32, 48, 49, 50]),
  /- input_int.cpp 491 -/ (.char, ⟨[], [], [.int ⟨.int, true⟩ [.oct, .pad0 3, .star, .align (.right 655360)] 10], false⟩, [32, 32, 32, 32, 32, 32, 32, 48, 49, 50]),
  /- input_int.cpp 492 -/ (.char, ⟨[], [], [.int ⟨.int, true⟩ [.oct, .pad0 5, .star, .align (.right 655360)] 10], false⟩, [32, 32, 32, 32, 32, 48, 48, 48, 49, 50]),
  /- input_int.cpp 493 -/ (.char, ⟨[], [], [.int ⟨.int, true⟩ [.oct, .pad0 10, .align (.right 655360)] 10], false⟩, [48, 48, 48, 48, 48, 48, 48, 48, 49, 50]),
  /- input_int.cpp 494 -/ (.char, ⟨[], [], [.int ⟨.int, true⟩ [.oct, .pad0 10, .star, .align (.right 655360)] 10], false⟩, [48, 48, 48, 48, 48, 48, 48, 48, 49, 50]),
  /- input_int.cpp 495 -/ (.char, ⟨[], [], [.int ⟨.int, true⟩ [.oct, .pad0 11, .align (.right 655360)] 10], false⟩, [48, 48, 48, 48, 48, 48, 48, 48, 48, 49, 50]),
  /- input_int.cpp 496 -/ (.char, ⟨[], [], [.int ⟨.int, true⟩ [.oct, .pad0 11, .star, .align (.right 655360)] 10], false⟩, [48, 48, 48, 48, 48, 48, 48, 48, 48, 49, 50]),
  /- input_int.cpp 499 -/ (.char, ⟨[], [], [.int ⟨.int, true⟩ [.oct, .p 2, .align (.right 655360)] 10], false⟩, [32, 32, 32, 32, 32, 32, 32, 32, 49, 50]),
  /- input_int.cpp 500 -/ (.char, ⟨[], [], [.int ⟨.int, true⟩ [.oct, .p 3, .align (.right 655360)] 10], false⟩, [32, 32, 32, 32, 32, 32, 32, 48, 49, 50]),
  /- input_int.cpp 501 -/ (.char, ⟨[], [], [.int ⟨.int, true⟩ [.oct, .p 3, .star, .align (.right 655360)] 10], false⟩, [32, 32, 32, 32, 32, 32, 32, 48, 49, 50]),
  /- input_int.cpp 502 -/ (.char, ⟨[], [], [.int ⟨.int, true⟩ [.oct, .p 5, .star, .align (.right 655360)] 10], false⟩, [32, 32, 32, 32, 32, 48, 48, 48, 49, 50]),
  /- input_int.cpp 503 -/ (.char, ⟨[], [], [.int ⟨.int, true⟩ [.oct, .p 10, .align (.right 655360)] 10], false⟩, [48, 48, 48, 48, 48, 48, 48, 48, 49, 50]),
  /- input_int.cpp 504 -/ (.char, ⟨[], [], [.int ⟨.int, true⟩ [.oct, .p 10, .star, .align (.right 655360)] 10], false⟩, [48, 48, 48, 48, 48, 48, 48, 48, 49, 50]),
  /- input_int.cpp 505 -/ (.char, ⟨[], [], [.int ⟨.int, true⟩ [.oct, .p 11, .align (.right 655360)] 10], false⟩, [48, 48, 48, 48, 48, 48, 48, 48, 48, 49, 50]),
  /- input_int.cpp 506 -/ (.char, ⟨[], [], [.int ⟨.int, true⟩ [.oct, .p 11, .star, .align (.right 655360)] 10], false⟩, [48, 48, 48, 48, 48, 48, 48, 48, 48, 49, 50]),
  /- input_int.cpp 509 -/ (.char, ⟨[], [], [.int ⟨.int, true⟩ [.oct, .pad0 2, .p 2, .align (.right 655360)] 10], false⟩, [32, 32, 32, 32, 32, 32, 32, 32, 49, 50]),
  /- input_int.cpp 510 -/ (.char, ⟨[], [], [.int ⟨.int, true⟩ [.oct, .pad0 2, .p 3, .align (.right 655360)] 10], false⟩, [32, 32, 32, 32, 32, 32, 32, 48, 49, 50]),
  /- input_int.cpp 511 -/ (.char, ⟨[], [], [.int ⟨.int, true⟩ [.oct, .pad0 3, .p 2, .align (.right 655360)] 10], false⟩, [32, 32, 32, 32, 32, 32, 32, 48, 49, 50]),
  /- input_int.cpp 512 -/ (.char, ⟨[], [], [.int ⟨.int, true⟩ [.oct, .pad0 2, .p 3, .star, .align (.right 655360)] 10], false⟩, [32, 32, 32, 32, 32, 32, 32, 48, 49, 50]),
  /- input_int.cpp 513 -/ (.char, ⟨[], [], [.int ⟨.int, true⟩ [.oct, .pad0 3, .p 2, .star, .align (.right 655360)] 10], false⟩, [32, 32, 32, 32, 32, 32, 32, 48, 49, 50]),
  /- input_int.cpp 514 -/ (.char, ⟨[], [], [.int ⟨.int, true⟩ [.oct, .pad0 3, .p 4, .star, .align (.right 655360)] 10], false⟩, [32, 32, 32, 32, 32, 32, 48, 48, 49, 50]),
  /- input_int.cpp 515 -/ (.char, ⟨[], [], [.int ⟨.int, true⟩ [.oct, .pad0 4, .p 3, .star, .align (.right 655360)] 10], false⟩, [32, 32, 32, 32, 32, 32, 48, 48, 49, 50])] = true := by decide +kernel

set_option maxRecDepth 100000 in
example : allPrint [
  /- input_int.cpp 518 -/ (.char, ⟨[], [], [.int ⟨.int, true⟩ [.oct] 0], false⟩, [48]),
  /- input_int.cpp 519 -/ (.char, ⟨[], [], [.int ⟨.int, true⟩ [.oct, .star] 0], false⟩, [48]),
  /- input_int.cpp 520 -/ (.char, ⟨[], [], [.int ⟨.int, true⟩ [.oct, .p 1, .star] 0], false⟩, [48]),
  /- input_int.cpp 521 -/ (.char, ⟨[], [], [.int ⟨.int, true⟩ [.oct, .pad0 1, .star] 1], false⟩, [48, 49]),
  /- input_int.cpp 522 -/ (.char, ⟨[], [], [.int ⟨.int, true⟩ [.oct, .pad0 2, .star] 1], false⟩, [48, 49]),
  /- input_int.cpp 523 -/ (.char, ⟨[], [], [.int ⟨.int, true⟩ [.oct, .pad0 3, .star] 1], false⟩, [48, 48, 49]),
  /- input_int.cpp 524 -/ (.char, ⟨[], [], [.int ⟨.int, true⟩ [.oct, .p 2, .star] 1], false⟩, [48, 49]),
  /- input_int.cpp 525 -/ (.char, ⟨[], [], [.int ⟨.int, true⟩ [.oct, .p 3, .star] 1], false⟩, [48, 48, 49]),
  /- input_int.cpp 526 -/ (.char, ⟨[], [], [.int ⟨.int, true⟩ [.oct, .pad0 1, .star] 1], false⟩, [48, 49]),
  /- input_int.cpp 527 -/ (.char, ⟨[], [], [.int ⟨.int, true⟩ [.oct, .star, .align (.right 327680)] 0], false⟩, [32, 32, 32, 32, 48]),
  /- input_int.cpp 528 -/ (.char, ⟨[], [], [.int ⟨.int, true⟩ [.oct, .p 1, .star, .align (.right 327680)] 0], false⟩, [32, 32, 32, 32, 48]),
  /- input_int.cpp 529 -/ (.char, ⟨[], [], [.int ⟨.int, true⟩ [.oct, .p 2, .star, .align (.right 327680)] 1], false⟩, [32, 32, 32, 48, 49]),
  /- input_int.cpp 530 -/ (.char, ⟨[], [], [.int ⟨.int, true⟩ [.oct, .p 3, .star, .align (.right 327680)] 1], false⟩, [32, 32, 48, 48, 49]),
  /- input_int.cpp 534 -/ (.char, ⟨[], [], [.alignedJoin ⟨32, .right, 524288⟩ [.int ⟨.int, true⟩ [] 123]], false⟩, [32, 32, 32, 32, 32, 49, 50, 51]),
  /- input_int.cpp 535 -/ (.char, ⟨[], [], [.alignedJoin ⟨46, .right, 524288⟩ [.int ⟨.int, true⟩ [.align (.set 126 327680 .left)] 123]], false⟩, [46, 46, 46, 49, 50, 51, 126, 126]),
  /- input_int.cpp 536 -/ (.char, ⟨[], [], [.alignedJoin ⟨46, .right, 524288⟩ [.int ⟨.int, true⟩ [.align (.set 126 196608 .left)] 123]], false⟩, [46, 46, 46, 46, 46, 49, 50, 51]),
  /- input_int.cpp 537 -/ (.char, ⟨[], [], [.alignedJoin ⟨46, .right, 524288⟩ [.int ⟨.int, true⟩ [.align (.set 126 131072 .left)] 123]], false⟩, [46, 46, 46, 46, 46, 49, 50, 51]),
  /- input_int.cpp 539 -/ (.char, ⟨[], [], [.alignedJoin ⟨32, .right, 196608⟩ [.int ⟨.int, true⟩ [] 123]], false⟩, [49, 50, 51]),
  /- input_int.cpp 540 -/ (.char, ⟨[], [], [.alignedJoin ⟨46, .right, 327680⟩ [.int ⟨.int, true⟩ [.align (.set 126 327680 .left)] 123]], false⟩, [49, 50, 51, 126, 126]),
  /- input_int.cpp 541 -/ (.char, ⟨[], [], [.alignedJoin ⟨46, .right, 196608⟩ [.int ⟨.int, true⟩ [.align (.set 126 196608 .left)] 123]], false⟩, [49, 50, 51]),
  /- input_int.cpp 542 -/ (.char, ⟨[], [], [.alignedJoin ⟨46, .right, 196608⟩ [.int ⟨.int, true⟩ [.align (.set 126 131072 .left)] 123]], false⟩, [49, 50, 51]),
  /- input_int.cpp 543 -/ (.char, ⟨[], [], [.alignedJoin ⟨32, .right, 131072⟩ [.int ⟨.int, true⟩ [] 123]], false⟩, [49, 50, 51]),
  /- input_int.cpp 545 -/ (.char, ⟨[], [], [.alignedJoin ⟨46, .right, 262144⟩ [.int ⟨.int, true⟩ [.align (.set 126 327680 .left)] 123]], false⟩, [49, 50, 51, 126, 126]),
  /- input_int.cpp 546 -/ (.char, ⟨[], [], [.alignedJoin ⟨46, .right, 131072⟩ [.int ⟨.int, true⟩ [.align (.set 126 196608 .left)] 123]], false⟩, [49, 50, 51]),
  /- input_int.cpp 547 -/ (.char, ⟨[], [], [.alignedJoin ⟨46, .right, 131072⟩ [.int ⟨.int, true⟩ [.align (.set 126 131072 .left)] 123]], false⟩, [49, 50, 51]),
  /- input_int.cpp 549 -/ (.char, ⟨[], [], [.alignedJoin ⟨32, .right, 524288⟩ [.int ⟨.int, true⟩ [.p 5] 123]], false⟩, [32, 32, 32, 48, 48, 49, 50, 51]),
  /- input_int.cpp 550 -/ (.char, ⟨[], [], [.alignedJoin ⟨46, .right, 655360⟩ [.int ⟨.int, true⟩ [.align (.set 126 524288 .left), .p 5] 123]], false⟩, [46, 46, 48, 48, 49, 50, 51, 126, 126, 126]),
  /- input_int.cpp 551 -/ (.char, ⟨[], [], [.alignedJoin ⟨46, .right, 655360⟩ [.int ⟨.int, true⟩ [.align (.set 126 327680 .left), .p 5] 123]], false⟩, [46, 46, 46, 46, 46, 48, 48, 49, 50, 51]),
  /- input_int.cpp 553 -/ (.char, ⟨[], [], [.alignedJoin ⟨46, .right, 458752⟩ [.int ⟨.int, true⟩ [.align (.set 126 458752 .left), .p 5] 123]], false⟩, [48, 48, 49, 50, 51, 126, 126]),
  /- input_int.cpp 554 -/ (.char, ⟨[], [], [.alignedJoin ⟨46, .right, 327680⟩ [.int ⟨.int, true⟩ [.align (.set 126 327680 .left), .p 5] 123]], false⟩, [48, 48, 49, 50, 51]),
  /- input_int.cpp 555 -/ (.char, ⟨[], [], [.alignedJoin ⟨46, .right, 327680⟩ [.int ⟨.int, true⟩ [.align (.set 126 196608 .left), .p 5] 123]], false⟩, [48, 48, 49, 50, 51]),
  /- input_int.cpp 559 -/ (.char, ⟨[], [], [.alignedJoin ⟨32, .right, 917504⟩ [.int ⟨.int, true⟩ [.align (.set 42 786432 .center), .fillSign] (-12345)]], false⟩, [32, 32, 42, 42, 42, 45, 49, 50, 51, 52, 53, 42, 42, 42]),
  /- input_int.cpp 560 -/ (.char, ⟨[], [], [.alignedJoin ⟨32, .right, 917504⟩ [.int ⟨.int, true⟩ [.align (.set 42 786432 .center), .fillSign] 12345]], false⟩, [32, 32, 42, 42, 42, 42, 49, 50, 51, 52, 53, 42, 42, 42]),
  /- input_int.cpp 587 -/ (.char, ⟨[[.facet (.charset .char) (.charset .char ⟨.sbc 18, true⟩), .facet (.numpunct 10) (.numpunct 10 ⟨Numpunct.ctor2 [3], 46, 8364⟩)]], [], [.int ⟨.int, true⟩ [.punct] 1234567], false⟩, [49, 128, 50, 51, 52, 128, 53, 54, 55]),
  /- input_int.cpp 588 -/ (.char, ⟨[[.facet (.charset .char) (.charset .char ⟨.sbc 18, true⟩), .facet (.numpunct 10) (.numpunct 10 ⟨Numpunct.ctor2 [3], 46, 8364⟩)]], [], [.int ⟨.int, true⟩ [.align (.set 42 983040 .right), .punct] 1234567], false⟩, [42, 42, 42, 42, 42, 42, 49, 128, 50, 51, 52, 128, 53, 54, 55])] = true := by decide +kernel

end Strf.Program
