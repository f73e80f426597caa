import Verif.Conformance.Base
/-! Generated by tools/conformance.py from /repo/tests: see Verif/Conformance/Base.lean. Tests of the model, not proofs. -/
namespace Strf.Program
open Strf.Format

set_option maxRecDepth 100000 in
example : allPrint [
  /- input_float.cpp 211 -/ (.char, ⟨[], [.pack []], [.alignedJoin ⟨95, .right, 1310720⟩ [.float .double [.pad0 9, .hex] 9218868437227405312]], false⟩, [95, 95, 95, 95, 95, 95, 95, 95, 95, 95, 95, 32, 32, 32, 32, 32, 32, 105, 110, 102]),
  /- input_float.cpp 213 -/ (.char, ⟨[], [.pack []], [.alignedJoin ⟨95, .right, 1310720⟩ [.float .double [.pad0 9] 18442240474082181120]], false⟩, [95, 95, 95, 95, 95, 95, 95, 95, 95, 95, 95, 32, 32, 32, 32, 32, 45, 105, 110, 102]),
  /- input_float.cpp 214 -/ (.char, ⟨[], [.pack []], [.alignedJoin ⟨95, .right, 1310720⟩ [.float .double [.pad0 9, .plus] 9218868437227405312]], false⟩, [95, 95, 95, 95, 95, 95, 95, 95, 95, 95, 95, 32, 32, 32, 32, 32, 43, 105, 110, 102]),
  /- input_float.cpp 215 -/ (.char, ⟨[], [.pack []], [.alignedJoin ⟨95, .right, 1310720⟩ [.float .double [.pad0 9] 9218868437227405312]], false⟩, [95, 95, 95, 95, 95, 95, 95, 95, 95, 95, 95, 32, 32, 32, 32, 32, 32, 105, 110, 102]),
  /- input_float.cpp 217 -/ (.char, ⟨[], [.pack []], [.alignedJoin ⟨95, .right, 1310720⟩ [.float .double [.align (.set 126 589824 .right), .pad0 0, .hex, .plus] 9218868437227405312]], false⟩, [95, 95, 95, 95, 95, 95, 95, 95, 95, 95, 95, 126, 126, 126, 126, 126, 43, 105, 110, 102]),
  /- input_float.cpp 218 -/ (.char, ⟨[], [.pack []], [.alignedJoin ⟨95, .right, 1310720⟩ [.float .double [.align (.set 126 589824 .left), .pad0 8, .hex, .plus] 9218868437227405312]], false⟩, [95, 95, 95, 95, 95, 95, 95, 95, 95, 95, 95, 43, 105, 110, 102, 126, 126, 126, 126, 126]),
  /- input_float.cpp 219 -/ (.char, ⟨[], [.pack []], [.alignedJoin ⟨95, .right, 1310720⟩ [.float .double [.align (.set 126 589824 .center), .pad0 8, .hex, .plus] 9218868437227405312]], false⟩, [95, 95, 95, 95, 95, 95, 95, 95, 95, 95, 95, 126, 126, 43, 105, 110, 102, 126, 126, 126]),
  /- input_float.cpp 220 -/ (.char, ⟨[], [.pack []], [.alignedJoin ⟨95, .right, 1310720⟩ [.float .double [.align (.set 126 589824 .right), .pad0 10, .hex, .plus] 9218868437227405312]], false⟩, [95, 95, 95, 95, 95, 95, 95, 95, 95, 95, 126, 126, 126, 126, 126, 126, 43, 105, 110, 102]),
  /- input_float.cpp 221 -/ (.char, ⟨[], [.pack []], [.alignedJoin ⟨95, .right, 1310720⟩ [.float .double [.align (.set 126 589824 .left), .pad0 10, .hex, .plus] 9218868437227405312]], false⟩, [95, 95, 95, 95, 95, 95, 95, 95, 95, 95, 43, 105, 110, 102, 126, 126, 126, 126, 126, 126]),
  /- input_float.cpp 222 -/ (.char, ⟨[], [.pack []], [.alignedJoin ⟨95, .right, 1310720⟩ [.float .double [.align (.set 126 589824 .center), .pad0 10, .hex, .plus] 9218868437227405312]], false⟩, [95, 95, 95, 95, 95, 95, 95, 95, 95, 95, 126, 126, 126, 43, 105, 110, 102, 126, 126, 126]),
  /- input_float.cpp 224 -/ (.char, ⟨[], [.pack []], [.alignedJoin ⟨95, .right, 1310720⟩ [.float .double [.align (.set 126 589824 .right), .pad0 9, .plus] 9218868437227405312]], false⟩, [95, 95, 95, 95, 95, 95, 95, 95, 95, 95, 95, 126, 126, 126, 126, 126, 43, 105, 110, 102]),
  /- input_float.cpp 225 -/ (.char, ⟨[], [.pack []], [.alignedJoin ⟨95, .right, 1310720⟩ [.float .double [.align (.set 126 589824 .left), .pad0 9, .plus] 9218868437227405312]], false⟩, [95, 95, 95, 95, 95, 95, 95, 95, 95, 95, 95, 43, 105, 110, 102, 126, 126, 126, 126, 126]),
  /- input_float.cpp 226 -/ (.char, ⟨[], [.pack []], [.alignedJoin ⟨95, .right, 1310720⟩ [.float .double [.align (.set 126 589824 .center), .pad0 9, .plus] 9218868437227405312]], false⟩, [95, 95, 95, 95, 95, 95, 95, 95, 95, 95, 95, 126, 126, 43, 105, 110, 102, 126, 126, 126]),
  /- input_float.cpp 227 -/ (.char, ⟨[], [.pack []], [.alignedJoin ⟨95, .right, 1310720⟩ [.float .double [.align (.set 126 589824 .right), .pad0 10, .plus] 9218868437227405312]], false⟩, [95, 95, 95, 95, 95, 95, 95, 95, 95, 95, 126, 126, 126, 126, 126, 126, 43, 105, 110, 102]),
  /- input_float.cpp 228 -/ (.char, ⟨[], [.pack []], [.alignedJoin ⟨95, .right, 1310720⟩ [.float .double [.align (.set 126 589824 .left), .pad0 10, .plus] 9218868437227405312]], false⟩, [95, 95, 95, 95, 95, 95, 95, 95, 95, 95, 43, 105, 110, 102, 126, 126, 126, 126, 126, 126]),
  /- input_float.cpp 229 -/ (.char, ⟨[], [.pack []], [.alignedJoin ⟨95, .right, 1310720⟩ [.float .double [.align (.set 126 589824 .center), .pad0 10, .plus] 9218868437227405312]], false⟩, [95, 95, 95, 95, 95, 95, 95, 95, 95, 95, 126, 126, 126, 43, 105, 110, 102, 126, 126, 126]),
  /- input_float.cpp 231 -/ (.char, ⟨[], [.pack []], [.alignedJoin ⟨95, .right, 1310720⟩ [.float .double [.align (.set 126 589824 .right), .fillSign] 9218868437227405312]], false⟩, [95, 95, 95, 95, 95, 95, 95, 95, 95, 95, 95, 126, 126, 126, 126, 126, 126, 105, 110, 102]),
  /- input_float.cpp 232 -/ (.char, ⟨[], [.pack []], [.alignedJoin ⟨95, .right, 1310720⟩ [.float .double [.align (.set 126 589824 .right), .fillSign, .pad0 8] 9218868437227405312]], false⟩, [95, 95, 95, 95, 95, 95, 95, 95, 95, 95, 95, 126, 126, 126, 126, 126, 126, 105, 110, 102]),
  /- input_float.cpp 233 -/ (.char, ⟨[], [.pack []], [.alignedJoin ⟨95, .right, 1310720⟩ [.float .double [.align (.set 126 589824 .left), .fillSign, .pad0 8] 9218868437227405312]], false⟩, [95, 95, 95, 95, 95, 95, 95, 95, 95, 95, 95, 126, 105, 110, 102, 126, 126, 126, 126, 126]),
  /- input_float.cpp 234 -/ (.char, ⟨[], [.pack []], [.alignedJoin ⟨95, .right, 1310720⟩ [.float .double [.align (.set 126 589824 .center), .fillSign, .pad0 8] 9218868437227405312]], false⟩, [95, 95, 95, 95, 95, 95, 95, 95, 95, 95, 95, 126, 126, 126, 105, 110, 102, 126, 126, 126]),
  /- input_float.cpp 235 -/ (.char, ⟨[], [.pack []], [.alignedJoin ⟨95, .right, 1310720⟩ [.float .double [.align (.set 126 589824 .right), .fillSign, .pad0 10] 9218868437227405312]], false⟩, [95, 95, 95, 95, 95, 95, 95, 95, 95, 95, 126, 126, 126, 126, 126, 126, 126, 105, 110, 102]),
  /- input_float.cpp 236 -/ (.char, ⟨[], [.pack []], [.alignedJoin ⟨95, .right, 1310720⟩ [.float .double [.align (.set 126 589824 .left), .fillSign, .pad0 10] 9218868437227405312]], false⟩, [95, 95, 95, 95, 95, 95, 95, 95, 95, 95, 126, 105, 110, 102, 126, 126, 126, 126, 126, 126]),
  /- input_float.cpp 237 -/ (.char, ⟨[], [.pack []], [.alignedJoin ⟨95, .right, 1310720⟩ [.float .double [.align (.set 126 589824 .center), .fillSign, .pad0 10] 9218868437227405312]], false⟩, [95, 95, 95, 95, 95, 95, 95, 95, 95, 95, 126, 126, 126, 126, 105, 110, 102, 126, 126, 126]),
  /- input_float.cpp 239 -/ (.char, ⟨[], [.pack []], [.alignedJoin ⟨95, .right, 1310720⟩ [.float .double [.pad0 9, .fillSign] 9218868437227405312]], false⟩, [95, 95, 95, 95, 95, 95, 95, 95, 95, 95, 95, 32, 32, 32, 32, 32, 32, 105, 110, 102]),
  /- input_float.cpp 240 -/ (.char, ⟨[], [.pack []], [.alignedJoin ⟨95, .right, 1310720⟩ [.float .double [.fillSign] 9218868437227405312]], false⟩, [95, 95, 95, 95, 95, 95, 95, 95, 95, 95, 95, 95, 95, 95, 95, 95, 32, 105, 110, 102]),
  /- input_float.cpp 242 -/ (.char, ⟨[], [.pack []], [.alignedJoin ⟨95, .right, 1310720⟩ [.float .double [.align (.set 126 589824 .right), .hex, .fillSign] 9218868437227405312]], false⟩, [95, 95, 95, 95, 95, 95, 95, 95, 95, 95, 95, 126, 126, 126, 126, 126, 126, 105, 110, 102]),
  /- input_float.cpp 243 -/ (.char, ⟨[], [.pack []], [.alignedJoin ⟨95, .right, 1310720⟩ [.float .double [.align (.set 126 589824 .right), .hex, .fillSign, .pad0 8] 9218868437227405312]], false⟩, [95, 95, 95, 95, 95, 95, 95, 95, 95, 95, 95, 126, 126, 126, 126, 126, 126, 105, 110, 102]),
  /- input_float.cpp 244 -/ (.char, ⟨[], [.pack []], [.alignedJoin ⟨95, .right, 1310720⟩ [.float .double [.align (.set 126 589824 .left), .hex, .fillSign, .pad0 8] 9218868437227405312]], false⟩, [95, 95, 95, 95, 95, 95, 95, 95, 95, 95, 95, 126, 105, 110, 102, 126, 126, 126, 126, 126]),
  /- input_float.cpp 245 -/ (.char, ⟨[], [.pack []], [.alignedJoin ⟨95, .right, 1310720⟩ [.float .double [.align (.set 126 589824 .center), .hex, .fillSign, .pad0 8] 9218868437227405312]], false⟩, [95, 95, 95, 95, 95, 95, 95, 95, 95, 95, 95, 126, 126, 126, 105, 110, 102, 126, 126, 126]),
  /- input_float.cpp 246 -/ (.char, ⟨[], [.pack []], [.alignedJoin ⟨95, .right, 1310720⟩ [.float .double [.align (.set 126 589824 .right), .hex, .fillSign, .pad0 10] 9218868437227405312]], false⟩, [95, 95, 95, 95, 95, 95, 95, 95, 95, 95, 126, 126, 126, 126, 126, 126, 126, 105, 110, 102]),
  /- input_float.cpp 247 -/ (.char, ⟨[], [.pack []], [.alignedJoin ⟨95, .right, 1310720⟩ [.float .double [.align (.set 126 589824 .left), .hex, .fillSign, .pad0 10] 9218868437227405312]], false⟩, [95, 95, 95, 95, 95, 95, 95, 95, 95, 95, 126, 105, 110, 102, 126, 126, 126, 126, 126, 126]),
  /- input_float.cpp 248 -/ (.char, ⟨[], [.pack []], [.alignedJoin ⟨95, .right, 1310720⟩ [.float .double [.align (.set 126 589824 .center), .hex, .fillSign, .pad0 10] 9218868437227405312]], false⟩, [95, 95, 95, 95, 95, 95, 95, 95, 95, 95, 126, 126, 126, 126, 105, 110, 102, 126, 126, 126]),
  /- input_float.cpp 250 -/ (.char, ⟨[], [.pack []], [.alignedJoin ⟨95, .right, 1310720⟩ [.float .double [.pad0 9, .hex, .fillSign] 9218868437227405312]], false⟩, [95, 95, 95, 95, 95, 95, 95, 95, 95, 95, 95, 32, 32, 32, 32, 32, 32, 105, 110, 102]),
  /- input_float.cpp 251 -/ (.char, ⟨[], [.pack []], [.alignedJoin ⟨95, .right, 1310720⟩ [.float .double [.hex, .fillSign] 9218868437227405312]], false⟩, [95, 95, 95, 95, 95, 95, 95, 95, 95, 95, 95, 95, 95, 95, 95, 95, 32, 105, 110, 102]),
  /- input_float.cpp 253 -/ (.char, ⟨[], [.pack [], .facet .lettercase (.lettercase .lower)], [.alignedJoin ⟨95, .right, 1310720⟩ [.float .double [] 9218868437227405313]], false⟩, [95, 95, 95, 95, 95, 95, 95, 95, 95, 95, 95, 95, 95, 95, 95, 95, 95, 110, 97, 110]),
  /- input_float.cpp 254 -/ (.char, ⟨[], [.pack [], .facet .lettercase (.lettercase .lower)], [.alignedJoin ⟨95, .right, 1310720⟩ [.float .double [] 9218868437227405312]], false⟩, [95, 95, 95, 95, 95, 95, 95, 95, 95, 95, 95, 95, 95, 95, 95, 95, 95, 105, 110, 102]),
  /- input_float.cpp 255 -/ (.char, ⟨[], [.pack [], .facet .lettercase (.lettercase .lower)], [.alignedJoin ⟨95, .right, 1310720⟩ [.float .double [] 18442240474082181120]], false⟩, [95, 95, 95, 95, 95, 95, 95, 95, 95, 95, 95, 95, 95, 95, 95, 95, 45, 105, 110, 102]),
  /- input_float.cpp 256 -/ (.char, ⟨[], [.pack [], .facet .lettercase (.lettercase .lower)], [.alignedJoin ⟨95, .right, 1310720⟩ [.float .double [.sci] 9218868437227405312]], false⟩, [95, 95, 95, 95, 95, 95, 95, 95, 95, 95, 95, 95, 95, 95, 95, 95, 95, 105, 110, 102]),
  /- input_float.cpp 257 -/ (.char, ⟨[], [.pack [], .facet .lettercase (.lettercase .lower)], [.alignedJoin ⟨95, .right, 1310720⟩ [.float .double [.sci] 18442240474082181120]], false⟩, [95, 95, 95, 95, 95, 95, 95, 95, 95, 95, 95, 95, 95, 95, 95, 95, 45, 105, 110, 102]),
  /- input_float.cpp 258 -/ (.char, ⟨[], [.pack [], .facet .lettercase (.lettercase .lower)], [.alignedJoin ⟨95, .right, 1310720⟩ [.float .double [.hex] 9218868437227405312]], false⟩, [95, 95, 95, 95, 95, 95, 95, 95, 95, 95, 95, 95, 95, 95, 95, 95, 95, 105, 110, 102])] = true := by decide +kernel

set_option maxRecDepth 100000 in
example : allPrint [
  /- input_float.cpp 259 -/ (.char, ⟨[], [.pack [], .facet .lettercase (.lettercase .lower)], [.alignedJoin ⟨95, .right, 1310720⟩ [.float .double [.hex] 18442240474082181120]], false⟩, [95, 95, 95, 95, 95, 95, 95, 95, 95, 95, 95, 95, 95, 95, 95, 95, 45, 105, 110, 102]),
  /- input_float.cpp 260 -/ (.char, ⟨[], [.pack [], .facet .lettercase (.lettercase .lower)], [.alignedJoin ⟨95, .right, 1310720⟩ [.float .double [.hex] 9218868437227405313]], false⟩, [95, 95, 95, 95, 95, 95, 95, 95, 95, 95, 95, 95, 95, 95, 95, 95, 95, 110, 97, 110]),
  /- input_float.cpp 262 -/ (.char, ⟨[], [.pack [], .facet .lettercase (.lettercase .mixed)], [.alignedJoin ⟨95, .right, 1310720⟩ [.float .double [] 9218868437227405313]], false⟩, [95, 95, 95, 95, 95, 95, 95, 95, 95, 95, 95, 95, 95, 95, 95, 95, 95, 78, 97, 78]),
  /- input_float.cpp 263 -/ (.char, ⟨[], [.pack [], .facet .lettercase (.lettercase .mixed)], [.alignedJoin ⟨95, .right, 1310720⟩ [.float .double [] 18442240474082181121]], false⟩, [95, 95, 95, 95, 95, 95, 95, 95, 95, 95, 95, 95, 95, 95, 95, 95, 45, 78, 97, 78]),
  /- input_float.cpp 264 -/ (.char, ⟨[], [.pack [], .facet .lettercase (.lettercase .mixed)], [.alignedJoin ⟨95, .right, 1310720⟩ [.float .double [] 9218868437227405312]], false⟩, [95, 95, 95, 95, 95, 95, 95, 95, 95, 95, 95, 95, 95, 95, 95, 95, 95, 73, 110, 102]),
  /- input_float.cpp 265 -/ (.char, ⟨[], [.pack [], .facet .lettercase (.lettercase .mixed)], [.alignedJoin ⟨95, .right, 1310720⟩ [.float .double [] 18442240474082181120]], false⟩, [95, 95, 95, 95, 95, 95, 95, 95, 95, 95, 95, 95, 95, 95, 95, 95, 45, 73, 110, 102]),
  /- input_float.cpp 266 -/ (.char, ⟨[], [.pack [], .facet .lettercase (.lettercase .mixed)], [.alignedJoin ⟨95, .right, 1310720⟩ [.float .double [.sci] 9218868437227405312]], false⟩, [95, 95, 95, 95, 95, 95, 95, 95, 95, 95, 95, 95, 95, 95, 95, 95, 95, 73, 110, 102]),
  /- input_float.cpp 267 -/ (.char, ⟨[], [.pack [], .facet .lettercase (.lettercase .mixed)], [.alignedJoin ⟨95, .right, 1310720⟩ [.float .double [.sci] 18442240474082181120]], false⟩, [95, 95, 95, 95, 95, 95, 95, 95, 95, 95, 95, 95, 95, 95, 95, 95, 45, 73, 110, 102]),
  /- input_float.cpp 268 -/ (.char, ⟨[], [.pack [], .facet .lettercase (.lettercase .mixed)], [.alignedJoin ⟨95, .right, 1310720⟩ [.float .double [.hex] 9218868437227405312]], false⟩, [95, 95, 95, 95, 95, 95, 95, 95, 95, 95, 95, 95, 95, 95, 95, 95, 95, 73, 110, 102]),
  /- input_float.cpp 269 -/ (.char, ⟨[], [.pack [], .facet .lettercase (.lettercase .mixed)], [.alignedJoin ⟨95, .right, 1310720⟩ [.float .double [.hex] 18442240474082181120]], false⟩, [95, 95, 95, 95, 95, 95, 95, 95, 95, 95, 95, 95, 95, 95, 95, 95, 45, 73, 110, 102]),
  /- input_float.cpp 270 -/ (.char, ⟨[], [.pack [], .facet .lettercase (.lettercase .mixed)], [.alignedJoin ⟨95, .right, 1310720⟩ [.float .double [.hex] 9218868437227405313]], false⟩, [95, 95, 95, 95, 95, 95, 95, 95, 95, 95, 95, 95, 95, 95, 95, 95, 95, 78, 97, 78]),
  /- input_float.cpp 272 -/ (.char, ⟨[], [.pack [], .facet .lettercase (.lettercase .upper)], [.alignedJoin ⟨95, .right, 1310720⟩ [.float .double [] 9218868437227405313]], false⟩, [95, 95, 95, 95, 95, 95, 95, 95, 95, 95, 95, 95, 95, 95, 95, 95, 95, 78, 65, 78]),
  /- input_float.cpp 273 -/ (.char, ⟨[], [.pack [], .facet .lettercase (.lettercase .upper)], [.alignedJoin ⟨95, .right, 1310720⟩ [.float .double [] 18442240474082181121]], false⟩, [95, 95, 95, 95, 95, 95, 95, 95, 95, 95, 95, 95, 95, 95, 95, 95, 45, 78, 65, 78]),
  /- input_float.cpp 274 -/ (.char, ⟨[], [.pack [], .facet .lettercase (.lettercase .upper)], [.alignedJoin ⟨95, .right, 1310720⟩ [.float .double [] 9218868437227405312]], false⟩, [95, 95, 95, 95, 95, 95, 95, 95, 95, 95, 95, 95, 95, 95, 95, 95, 95, 73, 78, 70]),
  /- input_float.cpp 275 -/ (.char, ⟨[], [.pack [], .facet .lettercase (.lettercase .upper)], [.alignedJoin ⟨95, .right, 1310720⟩ [.float .double [] 18442240474082181120]], false⟩, [95, 95, 95, 95, 95, 95, 95, 95, 95, 95, 95, 95, 95, 95, 95, 95, 45, 73, 78, 70]),
  /- input_float.cpp 276 -/ (.char, ⟨[], [.pack [], .facet .lettercase (.lettercase .upper)], [.alignedJoin ⟨95, .right, 1310720⟩ [.float .double [.sci] 9218868437227405312]], false⟩, [95, 95, 95, 95, 95, 95, 95, 95, 95, 95, 95, 95, 95, 95, 95, 95, 95, 73, 78, 70]),
  /- input_float.cpp 277 -/ (.char, ⟨[], [.pack [], .facet .lettercase (.lettercase .upper)], [.alignedJoin ⟨95, .right, 1310720⟩ [.float .double [.sci] 18442240474082181120]], false⟩, [95, 95, 95, 95, 95, 95, 95, 95, 95, 95, 95, 95, 95, 95, 95, 95, 45, 73, 78, 70]),
  /- input_float.cpp 278 -/ (.char, ⟨[], [.pack [], .facet .lettercase (.lettercase .upper)], [.alignedJoin ⟨95, .right, 1310720⟩ [.float .double [.hex] 9218868437227405312]], false⟩, [95, 95, 95, 95, 95, 95, 95, 95, 95, 95, 95, 95, 95, 95, 95, 95, 95, 73, 78, 70]),
  /- input_float.cpp 279 -/ (.char, ⟨[], [.pack [], .facet .lettercase (.lettercase .upper)], [.alignedJoin ⟨95, .right, 1310720⟩ [.float .double [.hex] 18442240474082181120]], false⟩, [95, 95, 95, 95, 95, 95, 95, 95, 95, 95, 95, 95, 95, 95, 95, 95, 45, 73, 78, 70]),
  /- input_float.cpp 280 -/ (.char, ⟨[], [.pack [], .facet .lettercase (.lettercase .upper)], [.alignedJoin ⟨95, .right, 1310720⟩ [.float .double [.hex] 9218868437227405313]], false⟩, [95, 95, 95, 95, 95, 95, 95, 95, 95, 95, 95, 95, 95, 95, 95, 95, 95, 78, 65, 78]),
  /- input_float.cpp 287 -/ (.char, ⟨[], [], [.alignedJoin ⟨95, .right, 1310720⟩ [.float .double [] 0]], false⟩, [95, 95, 95, 95, 95, 95, 95, 95, 95, 95, 95, 95, 95, 95, 95, 95, 95, 95, 95, 48]),
  /- input_float.cpp 288 -/ (.char, ⟨[], [], [.alignedJoin ⟨95, .right, 1310720⟩ [.float .double [] 9223372036854775808]], false⟩, [95, 95, 95, 95, 95, 95, 95, 95, 95, 95, 95, 95, 95, 95, 95, 95, 95, 95, 45, 48]),
  /- input_float.cpp 289 -/ (.char, ⟨[], [], [.alignedJoin ⟨95, .right, 1310720⟩ [.float .double [] 4607182418800017408]], false⟩, [95, 95, 95, 95, 95, 95, 95, 95, 95, 95, 95, 95, 95, 95, 95, 95, 95, 95, 95, 49]),
  /- input_float.cpp 290 -/ (.char, ⟨[], [], [.alignedJoin ⟨95, .right, 1310720⟩ [.float .double [] 13830554455654793216]], false⟩, [95, 95, 95, 95, 95, 95, 95, 95, 95, 95, 95, 95, 95, 95, 95, 95, 95, 95, 45, 49]),
  /- input_float.cpp 291 -/ (.char, ⟨[], [], [.alignedJoin ⟨95, .right, 1310720⟩ [.float .double [] 4609434218613702656]], false⟩, [95, 95, 95, 95, 95, 95, 95, 95, 95, 95, 95, 95, 95, 95, 95, 95, 95, 49, 46, 53]),
  /- input_float.cpp 292 -/ (.char, ⟨[], [], [.alignedJoin ⟨95, .right, 1310720⟩ [.float .double [] 4544132024016830464]], false⟩, [95, 95, 95, 95, 95, 54, 46, 49, 48, 51, 53, 49, 53, 54, 50, 53, 101, 45, 48, 53]),
  /- input_float.cpp 293 -/ (.char, ⟨[], [], [.alignedJoin ⟨95, .right, 1310720⟩ [.float .double [] 13692342225682524401]], false⟩, [95, 95, 95, 95, 45, 54, 46, 49, 48, 51, 53, 49, 53, 54, 50, 53, 101, 45, 49, 48]),
  /- input_float.cpp 294 -/ (.char, ⟨[], [], [.alignedJoin ⟨95, .right, 1310720⟩ [.float .double [] 3122503211152284245]], false⟩, [95, 95, 95, 95, 54, 46, 49, 48, 51, 53, 49, 53, 54, 50, 53, 101, 45, 49, 48, 48]),
  /- input_float.cpp 295 -/ (.char, ⟨[], [], [.alignedJoin ⟨95, .right, 1310720⟩ [.float .double [.sci] 4468970188827748593]], false⟩, [95, 95, 95, 95, 95, 54, 46, 49, 48, 51, 53, 49, 53, 54, 50, 53, 101, 45, 49, 48]),
  /- input_float.cpp 296 -/ (.char, ⟨[], [], [.alignedJoin ⟨95, .right, 1310720⟩ [.float .double [.sci] 3122503211152284245]], false⟩, [95, 95, 95, 95, 54, 46, 49, 48, 51, 53, 49, 53, 54, 50, 53, 101, 45, 49, 48, 48]),
  /- input_float.cpp 297 -/ (.char, ⟨[], [], [.alignedJoin ⟨95, .right, 1310720⟩ [.float .double [.sci] 6114735644258868938]], false⟩, [95, 95, 95, 95, 54, 46, 49, 48, 51, 53, 49, 53, 54, 50, 53, 101, 43, 49, 48, 48]),
  /- input_float.cpp 298 -/ (.char, ⟨[], [], [.alignedJoin ⟨95, .right, 1310720⟩ [.float .double [] 4557642822898941952]], false⟩, [95, 95, 95, 95, 95, 95, 95, 48, 46, 48, 48, 48, 52, 56, 56, 50, 56, 49, 50, 53]),
  /- input_float.cpp 299 -/ (.char, ⟨[], [], [.alignedJoin ⟨95, .right, 1310720⟩ [.float .double [] 4656722018996060160]], false⟩, [95, 95, 95, 95, 95, 95, 50, 48, 52, 56, 46, 48, 48, 49, 57, 53, 51, 49, 50, 53]),
  /- input_float.cpp 301 -/ (.char, ⟨[], [], [.alignedJoin ⟨95, .right, 1310720⟩ [.float .double [] 0]], false⟩, [95, 95, 95, 95, 95, 95, 95, 95, 95, 95, 95, 95, 95, 95, 95, 95, 95, 95, 95, 48]),
  /- input_float.cpp 302 -/ (.char, ⟨[], [], [.alignedJoin ⟨95, .right, 1310720⟩ [.float .double [] 9223372036854775808]], false⟩, [95, 95, 95, 95, 95, 95, 95, 95, 95, 95, 95, 95, 95, 95, 95, 95, 95, 95, 45, 48]),
  /- input_float.cpp 303 -/ (.char, ⟨[], [], [.alignedJoin ⟨95, .right, 1310720⟩ [.float .double [] 4607182418800017408]], false⟩, [95, 95, 95, 95, 95, 95, 95, 95, 95, 95, 95, 95, 95, 95, 95, 95, 95, 95, 95, 49]),
  /- input_float.cpp 304 -/ (.char, ⟨[], [], [.alignedJoin ⟨95, .right, 1310720⟩ [.float .double [] 13830554455654793216]], false⟩, [95, 95, 95, 95, 95, 95, 95, 95, 95, 95, 95, 95, 95, 95, 95, 95, 95, 95, 45, 49]),
  /- input_float.cpp 305 -/ (.char, ⟨[], [], [.alignedJoin ⟨95, .right, 1310720⟩ [.float .double [] 4609434218613702656]], false⟩, [95, 95, 95, 95, 95, 95, 95, 95, 95, 95, 95, 95, 95, 95, 95, 95, 95, 49, 46, 53]),
  /- input_float.cpp 306 -/ (.char, ⟨[], [], [.alignedJoin ⟨95, .right, 1310720⟩ [.float .double [] 4712889646143504384]], false⟩, [95, 95, 95, 95, 95, 95, 95, 95, 95, 49, 50, 51, 52, 53, 54, 55, 56, 46, 50, 53]),
  /- input_float.cpp 308 -/ (.char, ⟨[], [], [.alignedJoin ⟨95, .right, 1310720⟩ [.float .double [.plus] 4607182418800017408]], false⟩, [95, 95, 95, 95, 95, 95, 95, 95, 95, 95, 95, 95, 95, 95, 95, 95, 95, 95, 43, 49])] = true := by decide +kernel

set_option maxRecDepth 100000 in
example : allPrint [
  /- input_float.cpp 309 -/ (.char, ⟨[], [], [.alignedJoin ⟨95, .right, 1310720⟩ [.float .double [.plus] 13830554455654793216]], false⟩, [95, 95, 95, 95, 95, 95, 95, 95, 95, 95, 95, 95, 95, 95, 95, 95, 95, 95, 45, 49]),
  /- input_float.cpp 310 -/ (.char, ⟨[], [], [.alignedJoin ⟨95, .right, 1310720⟩ [.float .double [.star] 4607182418800017408]], false⟩, [95, 95, 95, 95, 95, 95, 95, 95, 95, 95, 95, 95, 95, 95, 95, 95, 95, 95, 49, 46]),
  /- input_float.cpp 311 -/ (.char, ⟨[], [], [.alignedJoin ⟨95, .right, 1310720⟩ [.float .double [.star] 13830554455654793216]], false⟩, [95, 95, 95, 95, 95, 95, 95, 95, 95, 95, 95, 95, 95, 95, 95, 95, 95, 45, 49, 46]),
  /- input_float.cpp 312 -/ (.char, ⟨[], [], [.alignedJoin ⟨95, .right, 1310720⟩ [.float .double [.plus, .star] 4607182418800017408]], false⟩, [95, 95, 95, 95, 95, 95, 95, 95, 95, 95, 95, 95, 95, 95, 95, 95, 95, 43, 49, 46]),
  /- input_float.cpp 313 -/ (.char, ⟨[], [], [.alignedJoin ⟨95, .right, 1310720⟩ [.float .double [.star, .plus] 13830554455654793216]], false⟩, [95, 95, 95, 95, 95, 95, 95, 95, 95, 95, 95, 95, 95, 95, 95, 95, 95, 45, 49, 46]),
  /- input_float.cpp 315 -/ (.char, ⟨[], [], [.alignedJoin ⟨95, .right, 1310720⟩ [.float .double [.fixed, .plus] 4547007122018943789]], false⟩, [95, 95, 95, 95, 95, 95, 95, 95, 95, 95, 95, 95, 95, 43, 48, 46, 48, 48, 48, 49]),
  /- input_float.cpp 316 -/ (.char, ⟨[], [], [.alignedJoin ⟨95, .right, 1310720⟩ [.float .double [.fixed, .p 10, .plus] 4547007122018943789]], false⟩, [95, 95, 95, 95, 95, 95, 95, 43, 48, 46, 48, 48, 48, 49, 48, 48, 48, 48, 48, 48]),
  /- input_float.cpp 319 -/ (.char, ⟨[], [.facet .lettercase (.lettercase .lower)], [.alignedJoin ⟨95, .right, 1310720⟩ [.float .double [] 5355091182177117338]], false⟩, [95, 95, 95, 95, 95, 95, 95, 95, 95, 95, 95, 95, 95, 95, 95, 49, 101, 43, 53, 48]),
  /- input_float.cpp 320 -/ (.char, ⟨[], [.facet .lettercase (.lettercase .mixed)], [.alignedJoin ⟨95, .right, 1310720⟩ [.float .double [] 5355091182177117338]], false⟩, [95, 95, 95, 95, 95, 95, 95, 95, 95, 95, 95, 95, 95, 95, 95, 49, 101, 43, 53, 48]),
  /- input_float.cpp 321 -/ (.char, ⟨[], [.facet .lettercase (.lettercase .upper)], [.alignedJoin ⟨95, .right, 1310720⟩ [.float .double [] 5355091182177117338]], false⟩, [95, 95, 95, 95, 95, 95, 95, 95, 95, 95, 95, 95, 95, 95, 95, 49, 69, 43, 53, 48]),
  /- input_float.cpp 323 -/ (.char, ⟨[], [.facet .lettercase (.lettercase .lower)], [.alignedJoin ⟨95, .right, 1310720⟩ [.float .double [.sci, .align (.right 393216)] 5355091182177117338]], false⟩, [95, 95, 95, 95, 95, 95, 95, 95, 95, 95, 95, 95, 95, 95, 32, 49, 101, 43, 53, 48]),
  /- input_float.cpp 324 -/ (.char, ⟨[], [.facet .lettercase (.lettercase .mixed)], [.alignedJoin ⟨95, .right, 1310720⟩ [.float .double [.sci, .align (.right 393216)] 5355091182177117338]], false⟩, [95, 95, 95, 95, 95, 95, 95, 95, 95, 95, 95, 95, 95, 95, 32, 49, 101, 43, 53, 48]),
  /- input_float.cpp 325 -/ (.char, ⟨[], [.facet .lettercase (.lettercase .upper)], [.alignedJoin ⟨95, .right, 1310720⟩ [.float .double [.sci, .align (.right 393216)] 5355091182177117338]], false⟩, [95, 95, 95, 95, 95, 95, 95, 95, 95, 95, 95, 95, 95, 95, 32, 49, 69, 43, 53, 48]),
  /- input_float.cpp 330 -/ (.char, ⟨[], [], [.alignedJoin ⟨95, .right, 1310720⟩ [.float .double [] 4666723172467343360]], false⟩, [95, 95, 95, 95, 95, 95, 95, 95, 95, 95, 95, 95, 95, 95, 95, 49, 48, 48, 48, 48]),
  /- input_float.cpp 331 -/ (.char, ⟨[], [], [.alignedJoin ⟨95, .right, 1310720⟩ [.float .double [] 4681608360884174848]], false⟩, [95, 95, 95, 95, 95, 95, 95, 95, 95, 95, 95, 95, 95, 95, 95, 49, 101, 43, 48, 53]),
  /- input_float.cpp 332 -/ (.char, ⟨[], [], [.alignedJoin ⟨95, .right, 1310720⟩ [.float .double [] 4697904772475256832]], false⟩, [95, 95, 95, 95, 95, 95, 95, 95, 95, 95, 95, 95, 95, 49, 50, 48, 48, 48, 48, 48]),
  /- input_float.cpp 333 -/ (.char, ⟨[], [], [.alignedJoin ⟨95, .right, 1310720⟩ [.float .double [] 4712704061546168320]], false⟩, [95, 95, 95, 95, 95, 95, 95, 95, 95, 95, 95, 95, 95, 49, 46, 50, 101, 43, 48, 55]),
  /- input_float.cpp 334 -/ (.char, ⟨[], [], [.alignedJoin ⟨95, .right, 1310720⟩ [.float .double [] 4562254508917369340]], false⟩, [95, 95, 95, 95, 95, 95, 95, 95, 95, 95, 95, 95, 95, 95, 95, 48, 46, 48, 48, 49]),
  /- input_float.cpp 335 -/ (.char, ⟨[], [], [.alignedJoin ⟨95, .right, 1310720⟩ [.float .double [] 4547007122018943789]], false⟩, [95, 95, 95, 95, 95, 95, 95, 95, 95, 95, 95, 95, 95, 95, 95, 49, 101, 45, 48, 52]),
  /- input_float.cpp 336 -/ (.char, ⟨[], [], [.alignedJoin ⟨95, .right, 1310720⟩ [.float .double [] 4548482861544840553]], false⟩, [95, 95, 95, 95, 95, 95, 95, 95, 95, 95, 95, 95, 95, 48, 46, 48, 48, 48, 49, 50]),
  /- input_float.cpp 337 -/ (.char, ⟨[], [], [.alignedJoin ⟨95, .right, 1310720⟩ [.float .double [] 4533201175231652948]], false⟩, [95, 95, 95, 95, 95, 95, 95, 95, 95, 95, 95, 95, 95, 49, 46, 50, 101, 45, 48, 53]),
  /- input_float.cpp 338 -/ (.char, ⟨[], [], [.alignedJoin ⟨95, .right, 1310720⟩ [.float .double [] 4548669923058963014]], false⟩, [95, 95, 95, 95, 95, 95, 95, 95, 95, 95, 95, 95, 48, 46, 48, 48, 48, 49, 50, 51]),
  /- input_float.cpp 339 -/ (.char, ⟨[], [], [.alignedJoin ⟨95, .right, 1310720⟩ [.float .double [] 4533378263974760560]], false⟩, [95, 95, 95, 95, 95, 95, 95, 95, 95, 95, 95, 95, 49, 46, 50, 51, 101, 45, 48, 53]),
  /- input_float.cpp 340 -/ (.char, ⟨[], [], [.alignedJoin ⟨95, .right, 1310720⟩ [.float .double [] 4666723172467343360]], false⟩, [95, 95, 95, 95, 95, 95, 95, 95, 95, 95, 95, 95, 95, 95, 95, 49, 48, 48, 48, 48]),
  /- input_float.cpp 341 -/ (.char, ⟨[], [], [.alignedJoin ⟨95, .right, 1310720⟩ [.float .double [.star] 4666723172467343360]], false⟩, [95, 95, 95, 95, 95, 95, 95, 95, 95, 95, 95, 95, 95, 95, 49, 48, 48, 48, 48, 46]),
  /- input_float.cpp 342 -/ (.char, ⟨[], [], [.alignedJoin ⟨95, .right, 1310720⟩ [.float .double [] 4681608360884174848]], false⟩, [95, 95, 95, 95, 95, 95, 95, 95, 95, 95, 95, 95, 95, 95, 95, 49, 101, 43, 48, 53]),
  /- input_float.cpp 343 -/ (.char, ⟨[], [], [.alignedJoin ⟨95, .right, 1310720⟩ [.float .double [.star] 4681608360884174848]], false⟩, [95, 95, 95, 95, 95, 95, 95, 95, 95, 95, 95, 95, 95, 95, 49, 46, 101, 43, 48, 53]),
  /- input_float.cpp 344 -/ (.char, ⟨[], [], [.alignedJoin ⟨95, .right, 1310720⟩ [.float .double [] 4697904772475256832]], false⟩, [95, 95, 95, 95, 95, 95, 95, 95, 95, 95, 95, 95, 95, 49, 50, 48, 48, 48, 48, 48]),
  /- input_float.cpp 345 -/ (.char, ⟨[], [], [.alignedJoin ⟨95, .right, 1310720⟩ [.float .double [.star] 4697904772475256832]], false⟩, [95, 95, 95, 95, 95, 95, 95, 95, 95, 95, 95, 95, 95, 49, 46, 50, 101, 43, 48, 54]),
  /- input_float.cpp 346 -/ (.char, ⟨[], [], [.alignedJoin ⟨95, .right, 1310720⟩ [.float .double [] 4562254508917369340]], false⟩, [95, 95, 95, 95, 95, 95, 95, 95, 95, 95, 95, 95, 95, 95, 95, 48, 46, 48, 48, 49]),
  /- input_float.cpp 347 -/ (.char, ⟨[], [], [.alignedJoin ⟨95, .right, 1310720⟩ [.float .double [] 4547007122018943789]], false⟩, [95, 95, 95, 95, 95, 95, 95, 95, 95, 95, 95, 95, 95, 95, 95, 49, 101, 45, 48, 52]),
  /- input_float.cpp 348 -/ (.char, ⟨[], [], [.alignedJoin ⟨95, .right, 1310720⟩ [.float .double [.star] 4547007122018943789]], false⟩, [95, 95, 95, 95, 95, 95, 95, 95, 95, 95, 95, 95, 95, 95, 48, 46, 48, 48, 48, 49]),
  /- input_float.cpp 349 -/ (.char, ⟨[], [], [.alignedJoin ⟨95, .right, 1310720⟩ [.float .double [.star] 4532020583610935537]], false⟩, [95, 95, 95, 95, 95, 95, 95, 95, 95, 95, 95, 95, 95, 95, 49, 46, 101, 45, 48, 53]),
  /- input_float.cpp 350 -/ (.char, ⟨[], [], [.alignedJoin ⟨95, .right, 1310720⟩ [.float .double [] 4548482861544840553]], false⟩, [95, 95, 95, 95, 95, 95, 95, 95, 95, 95, 95, 95, 95, 48, 46, 48, 48, 48, 49, 50]),
  /- input_float.cpp 351 -/ (.char, ⟨[], [], [.alignedJoin ⟨95, .right, 1310720⟩ [.float .double [.star] 4548482861544840553]], false⟩, [95, 95, 95, 95, 95, 95, 95, 95, 95, 95, 95, 95, 95, 48, 46, 48, 48, 48, 49, 50]),
  /- input_float.cpp 352 -/ (.char, ⟨[], [], [.alignedJoin ⟨95, .right, 1310720⟩ [.float .double [] 4533201175231652948]], false⟩, [95, 95, 95, 95, 95, 95, 95, 95, 95, 95, 95, 95, 95, 49, 46, 50, 101, 45, 48, 53]),
  /- input_float.cpp 353 -/ (.char, ⟨[], [], [.alignedJoin ⟨95, .right, 1310720⟩ [.float .double [.star] 4533201175231652948]], false⟩, [95, 95, 95, 95, 95, 95, 95, 95, 95, 95, 95, 95, 95, 49, 46, 50, 101, 45, 48, 53]),
  /- input_float.cpp 354 -/ (.char, ⟨[], [], [.alignedJoin ⟨95, .right, 1310720⟩ [.float .double [] 4548669923058963014]], false⟩, [95, 95, 95, 95, 95, 95, 95, 95, 95, 95, 95, 95, 48, 46, 48, 48, 48, 49, 50, 51]),
  /- input_float.cpp 355 -/ (.char, ⟨[], [], [.alignedJoin ⟨95, .right, 1310720⟩ [.float .double [] 4533378263974760560]], false⟩, [95, 95, 95, 95, 95, 95, 95, 95, 95, 95, 95, 95, 49, 46, 50, 51, 101, 45, 48, 53]),
  /- input_float.cpp 356 -/ (.char, ⟨[], [], [.alignedJoin ⟨95, .right, 1310720⟩ [.float .double [] 4544132024016830464]], false⟩, [95, 95, 95, 95, 95, 54, 46, 49, 48, 51, 53, 49, 53, 54, 50, 53, 101, 45, 48, 53])] = true := by decide +kernel

set_option maxRecDepth 100000 in
example : allPrint [
  /- input_float.cpp 357 -/ (.char, ⟨[], [], [.alignedJoin ⟨95, .right, 1310720⟩ [.float .double [] 4557642822898941952]], false⟩, [95, 95, 95, 95, 95, 95, 95, 48, 46, 48, 48, 48, 52, 56, 56, 50, 56, 49, 50, 53]),
  /- input_float.cpp 359 -/ (.char, ⟨[], [], [.alignedJoin ⟨95, .right, 1310720⟩ [.float .double [.star] 6103021453049119613]], false⟩, [95, 95, 95, 95, 95, 95, 95, 95, 95, 95, 95, 95, 95, 49, 46, 101, 43, 49, 48, 48]),
  /- input_float.cpp 360 -/ (.char, ⟨[], [], [.alignedJoin ⟨95, .right, 1310720⟩ [.float .double [.star] 3110860544497550640]], false⟩, [95, 95, 95, 95, 95, 95, 95, 95, 95, 95, 95, 95, 95, 49, 46, 101, 45, 49, 48, 48]),
  /- input_float.cpp 371 -/ (.char, ⟨[], [], [.alignedJoin ⟨95, .right, 1310720⟩ [.float .double [.p 2] 4548669923058963014]], false⟩, [95, 95, 95, 95, 95, 95, 95, 95, 95, 95, 95, 95, 95, 48, 46, 48, 48, 48, 49, 50]),
  /- input_float.cpp 372 -/ (.char, ⟨[], [], [.alignedJoin ⟨95, .right, 1310720⟩ [.float .double [.p 2] 4533378263974760560]], false⟩, [95, 95, 95, 95, 95, 95, 95, 95, 95, 95, 95, 95, 95, 49, 46, 50, 101, 45, 48, 53]),
  /- input_float.cpp 373 -/ (.char, ⟨[], [], [.alignedJoin ⟨95, .right, 1310720⟩ [.float .double [.p 1] 4622945017495814144]], false⟩, [95, 95, 95, 95, 95, 95, 95, 95, 95, 95, 95, 95, 95, 95, 95, 49, 101, 43, 48, 49]),
  /- input_float.cpp 374 -/ (.char, ⟨[], [], [.alignedJoin ⟨95, .right, 1310720⟩ [.float .double [.p 2] 4638355772470722560]], false⟩, [95, 95, 95, 95, 95, 95, 95, 95, 95, 95, 95, 95, 95, 49, 46, 50, 101, 43, 48, 50]),
  /- input_float.cpp 375 -/ (.char, ⟨[], [], [.alignedJoin ⟨95, .right, 1310720⟩ [.float .double [.p 4] 4638144666238189568]], false⟩, [95, 95, 95, 95, 95, 95, 95, 95, 95, 95, 95, 95, 95, 95, 95, 95, 95, 49, 50, 48]),
  /- input_float.cpp 376 -/ (.char, ⟨[], [], [.alignedJoin ⟨95, .right, 1310720⟩ [.float .double [.p 3] 4638151703112607334]], false⟩, [95, 95, 95, 95, 95, 95, 95, 95, 95, 95, 95, 95, 95, 95, 95, 95, 95, 49, 50, 48]),
  /- input_float.cpp 377 -/ (.char, ⟨[], [], [.alignedJoin ⟨95, .right, 1310720⟩ [.float .double [.p 4] 4666723172467343360]], false⟩, [95, 95, 95, 95, 95, 95, 95, 95, 95, 95, 95, 95, 95, 95, 95, 49, 101, 43, 48, 52]),
  /- input_float.cpp 378 -/ (.char, ⟨[], [], [.alignedJoin ⟨95, .right, 1310720⟩ [.float .double [.p 5] 4666723172467343360]], false⟩, [95, 95, 95, 95, 95, 95, 95, 95, 95, 95, 95, 95, 95, 95, 95, 49, 48, 48, 48, 48]),
  /- input_float.cpp 379 -/ (.char, ⟨[], [], [.alignedJoin ⟨95, .right, 1310720⟩ [.float .double [.p 6] 4666723172467343360]], false⟩, [95, 95, 95, 95, 95, 95, 95, 95, 95, 95, 95, 95, 95, 95, 95, 49, 48, 48, 48, 48]),
  /- input_float.cpp 380 -/ (.char, ⟨[], [], [.alignedJoin ⟨95, .right, 1310720⟩ [.float .double [.p 5] 4544132024016830464]], false⟩, [95, 95, 95, 95, 95, 95, 95, 95, 95, 95, 54, 46, 49, 48, 51, 53, 101, 45, 48, 53]),
  /- input_float.cpp 383 -/ (.char, ⟨[], [], [.alignedJoin ⟨95, .right, 1310720⟩ [.float .double [.p 0] 4622945017495814144]], false⟩, [95, 95, 95, 95, 95, 95, 95, 95, 95, 95, 95, 95, 95, 95, 95, 49, 101, 43, 48, 49]),
  /- input_float.cpp 384 -/ (.char, ⟨[], [], [.alignedJoin ⟨95, .right, 1310720⟩ [.float .double [.p 0] 4624704236100255744]], false⟩, [95, 95, 95, 95, 95, 95, 95, 95, 95, 95, 95, 95, 95, 95, 95, 50, 101, 43, 48, 49]),
  /- input_float.cpp 387 -/ (.char, ⟨[], [], [.alignedJoin ⟨95, .right, 1310720⟩ [.float .double [.p 2] 4682639084315738112]], false⟩, [95, 95, 95, 95, 95, 95, 95, 95, 95, 95, 95, 95, 95, 49, 46, 49, 101, 43, 48, 53]),
  /- input_float.cpp 388 -/ (.char, ⟨[], [], [.alignedJoin ⟨95, .right, 1310720⟩ [.float .double [.p 2] 4682639153035214848]], false⟩, [95, 95, 95, 95, 95, 95, 95, 95, 95, 95, 95, 95, 95, 49, 46, 50, 101, 43, 48, 53]),
  /- input_float.cpp 389 -/ (.char, ⟨[], [], [.alignedJoin ⟨95, .right, 1310720⟩ [.float .double [.p 2] 4683326347802574848]], false⟩, [95, 95, 95, 95, 95, 95, 95, 95, 95, 95, 95, 95, 95, 49, 46, 50, 101, 43, 48, 53]),
  /- input_float.cpp 390 -/ (.char, ⟨[], [], [.alignedJoin ⟨95, .right, 1310720⟩ [.float .double [.p 2] 4683326416522051584]], false⟩, [95, 95, 95, 95, 95, 95, 95, 95, 95, 95, 95, 95, 95, 49, 46, 51, 101, 43, 48, 53]),
  /- input_float.cpp 394 -/ (.char, ⟨[], [], [.alignedJoin ⟨95, .right, 1310720⟩ [.float .double [.p 3] 4666723172467343360]], false⟩, [95, 95, 95, 95, 95, 95, 95, 95, 95, 95, 95, 95, 95, 95, 95, 49, 101, 43, 48, 52]),
  /- input_float.cpp 395 -/ (.char, ⟨[], [], [.alignedJoin ⟨95, .right, 1310720⟩ [.float .double [.p 1, .star] 4666723172467343360]], false⟩, [95, 95, 95, 95, 95, 95, 95, 95, 95, 95, 95, 95, 95, 95, 49, 46, 101, 43, 48, 52]),
  /- input_float.cpp 396 -/ (.char, ⟨[], [], [.alignedJoin ⟨95, .right, 1310720⟩ [.float .double [.p 3, .star] 4638355772470722560]], false⟩, [95, 95, 95, 95, 95, 95, 95, 95, 95, 95, 95, 95, 95, 95, 95, 95, 49, 50, 51, 46]),
  /- input_float.cpp 399 -/ (.char, ⟨[], [], [.alignedJoin ⟨95, .right, 1310720⟩ [.float .double [.p 3] 4669471951536783360]], false⟩, [95, 95, 95, 95, 95, 95, 95, 95, 95, 95, 95, 95, 95, 49, 46, 53, 101, 43, 48, 52]),
  /- input_float.cpp 400 -/ (.char, ⟨[], [], [.alignedJoin ⟨95, .right, 1310720⟩ [.float .double [.p 3, .star] 4669471951536783360]], false⟩, [95, 95, 95, 95, 95, 95, 95, 95, 95, 95, 95, 95, 49, 46, 53, 48, 101, 43, 48, 52]),
  /- input_float.cpp 401 -/ (.char, ⟨[], [], [.alignedJoin ⟨95, .right, 1310720⟩ [.float .double [.p 3] 4669472501292597248]], false⟩, [95, 95, 95, 95, 95, 95, 95, 95, 95, 95, 95, 95, 95, 49, 46, 53, 101, 43, 48, 52]),
  /- input_float.cpp 402 -/ (.char, ⟨[], [], [.alignedJoin ⟨95, .right, 1310720⟩ [.float .double [.p 3, .star] 4669472501292597248]], false⟩, [95, 95, 95, 95, 95, 95, 95, 95, 95, 95, 95, 95, 95, 49, 46, 53, 101, 43, 48, 52]),
  /- input_float.cpp 403 -/ (.char, ⟨[], [], [.alignedJoin ⟨95, .right, 1310720⟩ [.float .double [.p 5] 4638355772470722560]], false⟩, [95, 95, 95, 95, 95, 95, 95, 95, 95, 95, 95, 95, 95, 95, 95, 95, 95, 49, 50, 51]),
  /- input_float.cpp 404 -/ (.char, ⟨[], [], [.alignedJoin ⟨95, .right, 1310720⟩ [.float .double [.p 5, .star] 4638355772470722560]], false⟩, [95, 95, 95, 95, 95, 95, 95, 95, 95, 95, 95, 95, 95, 95, 49, 50, 51, 46, 48, 48]),
  /- input_float.cpp 405 -/ (.char, ⟨[], [], [.alignedJoin ⟨95, .right, 1310720⟩ [.float .double [.p 6, .punct] 4652011706887700480]], false⟩, [95, 95, 95, 95, 95, 95, 95, 95, 95, 95, 95, 95, 95, 95, 49, 48, 48, 48, 46, 53]),
  /- input_float.cpp 408 -/ (.char, ⟨[], [], [.alignedJoin ⟨95, .right, 1310720⟩ [.float .double [.p 2] 4612248968380809216]], false⟩, [95, 95, 95, 95, 95, 95, 95, 95, 95, 95, 95, 95, 95, 95, 95, 95, 95, 50, 46, 50]),
  /- input_float.cpp 409 -/ (.char, ⟨[], [], [.alignedJoin ⟨95, .right, 1310720⟩ [.float .double [.p 2] 4612248968403327214]], false⟩, [95, 95, 95, 95, 95, 95, 95, 95, 95, 95, 95, 95, 95, 95, 95, 95, 95, 50, 46, 51]),
  /- input_float.cpp 410 -/ (.char, ⟨[], [], [.alignedJoin ⟨95, .right, 1310720⟩ [.float .double [.p 3] 4612248968403327214]], false⟩, [95, 95, 95, 95, 95, 95, 95, 95, 95, 95, 95, 95, 95, 95, 95, 95, 50, 46, 50, 53]),
  /- input_float.cpp 411 -/ (.char, ⟨[], [], [.alignedJoin ⟨95, .right, 1310720⟩ [.float .double [.p 2] 4836858800541171712]], false⟩, [95, 95, 95, 95, 95, 95, 95, 95, 95, 95, 95, 95, 95, 50, 46, 50, 101, 43, 49, 53]),
  /- input_float.cpp 412 -/ (.char, ⟨[], [], [.alignedJoin ⟨95, .right, 1310720⟩ [.float .double [.p 2] 6108168499948952407]], false⟩, [95, 95, 95, 95, 95, 95, 95, 95, 95, 95, 95, 95, 50, 46, 51, 101, 43, 49, 48, 48]),
  /- input_float.cpp 413 -/ (.char, ⟨[], [], [.alignedJoin ⟨95, .right, 1310720⟩ [.float .double [.p 3] 3116349198220031617]], false⟩, [95, 95, 95, 95, 95, 95, 95, 95, 95, 95, 95, 50, 46, 50, 53, 101, 45, 49, 48, 48]),
  /- input_float.cpp 419 -/ (.char, ⟨[], [], [.alignedJoin ⟨95, .right, 1310720⟩ [.float .double [.fixed, .star] 4607182418800017408]], false⟩, [95, 95, 95, 95, 95, 95, 95, 95, 95, 95, 95, 95, 95, 95, 95, 95, 95, 95, 49, 46]),
  /- input_float.cpp 420 -/ (.char, ⟨[], [], [.alignedJoin ⟨95, .right, 1310720⟩ [.float .double [.fixed] 4607182418800017408]], false⟩, [95, 95, 95, 95, 95, 95, 95, 95, 95, 95, 95, 95, 95, 95, 95, 95, 95, 95, 95, 49]),
  /- input_float.cpp 421 -/ (.char, ⟨[], [], [.alignedJoin ⟨95, .right, 1310720⟩ [.float .double [.fixed, .plus] 4607182418800017408]], false⟩, [95, 95, 95, 95, 95, 95, 95, 95, 95, 95, 95, 95, 95, 95, 95, 95, 95, 95, 43, 49]),
  /- input_float.cpp 422 -/ (.char, ⟨[], [], [.alignedJoin ⟨95, .right, 1310720⟩ [.float .double [.fixed] 13830554455654793216]], false⟩, [95, 95, 95, 95, 95, 95, 95, 95, 95, 95, 95, 95, 95, 95, 95, 95, 95, 95, 45, 49]),
  /- input_float.cpp 423 -/ (.char, ⟨[], [], [.alignedJoin ⟨95, .right, 1310720⟩ [.float .double [.fixed, .plus] 13830554455654793216]], false⟩, [95, 95, 95, 95, 95, 95, 95, 95, 95, 95, 95, 95, 95, 95, 95, 95, 95, 95, 45, 49])] = true := by decide +kernel

set_option maxRecDepth 100000 in
example : allPrint [
  /- input_float.cpp 425 -/ (.char, ⟨[], [], [.alignedJoin ⟨95, .right, 1310720⟩ [.float .double [.fixed, .p 0] 4607182418800017408]], false⟩, [95, 95, 95, 95, 95, 95, 95, 95, 95, 95, 95, 95, 95, 95, 95, 95, 95, 95, 95, 49]),
  /- input_float.cpp 426 -/ (.char, ⟨[], [], [.alignedJoin ⟨95, .right, 1310720⟩ [.float .double [.fixed, .p 0, .star] 4607182418800017408]], false⟩, [95, 95, 95, 95, 95, 95, 95, 95, 95, 95, 95, 95, 95, 95, 95, 95, 95, 95, 49, 46]),
  /- input_float.cpp 427 -/ (.char, ⟨[], [], [.alignedJoin ⟨95, .right, 1310720⟩ [.float .double [.fixed, .p 1] 4607182418800017408]], false⟩, [95, 95, 95, 95, 95, 95, 95, 95, 95, 95, 95, 95, 95, 95, 95, 95, 95, 49, 46, 48]),
  /- input_float.cpp 428 -/ (.char, ⟨[], [], [.alignedJoin ⟨95, .right, 1310720⟩ [.float .double [.fixed, .p 2] 4607182418800017408]], false⟩, [95, 95, 95, 95, 95, 95, 95, 95, 95, 95, 95, 95, 95, 95, 95, 95, 49, 46, 48, 48]),
  /- input_float.cpp 429 -/ (.char, ⟨[], [], [.alignedJoin ⟨95, .right, 1310720⟩ [.float .double [.fixed, .p 4] 4607182418800017408]], false⟩, [95, 95, 95, 95, 95, 95, 95, 95, 95, 95, 95, 95, 95, 95, 49, 46, 48, 48, 48, 48]),
  /- input_float.cpp 430 -/ (.char, ⟨[], [], [.alignedJoin ⟨95, .right, 1310720⟩ [.float .double [.fixed, .p 4] 4608308318706860032]], false⟩, [95, 95, 95, 95, 95, 95, 95, 95, 95, 95, 95, 95, 95, 95, 49, 46, 50, 53, 48, 48]),
  /- input_float.cpp 431 -/ (.char, ⟨[], [], [.alignedJoin ⟨95, .right, 1310720⟩ [.float .double [.fixed, .p 6] 4607186922399644778]], false⟩, [95, 95, 95, 95, 95, 95, 95, 95, 95, 95, 95, 95, 49, 46, 48, 48, 49, 48, 48, 48]),
  /- input_float.cpp 432 -/ (.char, ⟨[], [], [.alignedJoin ⟨95, .right, 1310720⟩ [.float .double [.fixed, .p 3] 4158027847206421152]], false⟩, [95, 95, 95, 95, 95, 95, 95, 95, 95, 95, 95, 95, 95, 95, 95, 48, 46, 48, 48, 48]),
  /- input_float.cpp 433 -/ (.char, ⟨[], [], [.alignedJoin ⟨95, .right, 1310720⟩ [.float .double [.fixed] 4593671619917905920]], false⟩, [95, 95, 95, 95, 95, 95, 95, 95, 95, 95, 95, 95, 95, 95, 95, 48, 46, 49, 50, 53]),
  /- input_float.cpp 436 -/ (.char, ⟨[], [], [.alignedJoin ⟨95, .right, 1310720⟩ [.float .double [.fixed, .p 1] 4612248968380809216]], false⟩, [95, 95, 95, 95, 95, 95, 95, 95, 95, 95, 95, 95, 95, 95, 95, 95, 95, 50, 46, 50]),
  /- input_float.cpp 437 -/ (.char, ⟨[], [], [.alignedJoin ⟨95, .right, 1310720⟩ [.float .double [.fixed, .p 1] 4612248968403327214]], false⟩, [95, 95, 95, 95, 95, 95, 95, 95, 95, 95, 95, 95, 95, 95, 95, 95, 95, 50, 46, 51]),
  /- input_float.cpp 438 -/ (.char, ⟨[], [], [.alignedJoin ⟨95, .right, 1310720⟩ [.float .double [.fixed, .p 2] 4612248968403327214]], false⟩, [95, 95, 95, 95, 95, 95, 95, 95, 95, 95, 95, 95, 95, 95, 95, 95, 50, 46, 50, 53]),
  /- input_float.cpp 439 -/ (.char, ⟨[], [], [.alignedJoin ⟨95, .right, 1310720⟩ [.float .double [.fixed, .p 4] 4542518279786832260]], false⟩, [95, 95, 95, 95, 95, 95, 95, 95, 95, 95, 95, 95, 95, 95, 48, 46, 48, 48, 48, 49]),
  /- input_float.cpp 440 -/ (.char, ⟨[], [], [.alignedJoin ⟨95, .right, 1310720⟩ [.float .double [.fixed, .p 4] 4542502046652047396]], false⟩, [95, 95, 95, 95, 95, 95, 95, 95, 95, 95, 95, 95, 95, 95, 48, 46, 48, 48, 48, 48]),
  /- input_float.cpp 441 -/ (.char, ⟨[], [], [.alignedJoin ⟨95, .right, 1310720⟩ [.float .double [.fixed, .p 3] 4546999743321314305]], false⟩, [95, 95, 95, 95, 95, 95, 95, 95, 95, 95, 95, 95, 95, 95, 95, 48, 46, 48, 48, 48]),
  /- input_float.cpp 446 -/ (.char, ⟨[], [], [.alignedJoin ⟨95, .right, 1310720⟩ [.float .double [.sci, .star] 0]], false⟩, [95, 95, 95, 95, 95, 95, 95, 95, 95, 95, 95, 95, 95, 95, 48, 46, 101, 43, 48, 48]),
  /- input_float.cpp 447 -/ (.char, ⟨[], [], [.alignedJoin ⟨95, .right, 1310720⟩ [.float .double [.sci, .star] 4666723172467343360]], false⟩, [95, 95, 95, 95, 95, 95, 95, 95, 95, 95, 95, 95, 95, 95, 49, 46, 101, 43, 48, 52]),
  /- input_float.cpp 448 -/ (.char, ⟨[], [], [.alignedJoin ⟨95, .right, 1310720⟩ [.float .double [.sci, .plus, .star] 4666723172467343360]], false⟩, [95, 95, 95, 95, 95, 95, 95, 95, 95, 95, 95, 95, 95, 43, 49, 46, 101, 43, 48, 52]),
  /- input_float.cpp 449 -/ (.char, ⟨[], [], [.alignedJoin ⟨95, .right, 1310720⟩ [.float .double [.sci, .star] 13890095209322119168]], false⟩, [95, 95, 95, 95, 95, 95, 95, 95, 95, 95, 95, 95, 95, 45, 49, 46, 101, 43, 48, 52]),
  /- input_float.cpp 451 -/ (.char, ⟨[], [], [.alignedJoin ⟨95, .right, 1310720⟩ [.float .double [.sci, .p 1] 4666723172467343360]], false⟩, [95, 95, 95, 95, 95, 95, 95, 95, 95, 95, 95, 95, 95, 49, 46, 48, 101, 43, 48, 52]),
  /- input_float.cpp 452 -/ (.char, ⟨[], [], [.alignedJoin ⟨95, .right, 1310720⟩ [.float .double [.sci, .p 1] 4666723172467343360]], false⟩, [95, 95, 95, 95, 95, 95, 95, 95, 95, 95, 95, 95, 95, 49, 46, 48, 101, 43, 48, 52]),
  /- input_float.cpp 453 -/ (.char, ⟨[], [], [.alignedJoin ⟨95, .right, 1310720⟩ [.float .double [.sci, .p 2, .plus] 4666723172467343360]], false⟩, [95, 95, 95, 95, 95, 95, 95, 95, 95, 95, 95, 43, 49, 46, 48, 48, 101, 43, 48, 52]),
  /- input_float.cpp 454 -/ (.char, ⟨[], [], [.alignedJoin ⟨95, .right, 1310720⟩ [.float .double [.sci, .p 0, .star] 4666723172467343360]], false⟩, [95, 95, 95, 95, 95, 95, 95, 95, 95, 95, 95, 95, 95, 95, 49, 46, 101, 43, 48, 52]),
  /- input_float.cpp 455 -/ (.char, ⟨[], [], [.alignedJoin ⟨95, .right, 1310720⟩ [.float .double [.sci, .p 0, .plus, .star] 4666723172467343360]], false⟩, [95, 95, 95, 95, 95, 95, 95, 95, 95, 95, 95, 95, 95, 43, 49, 46, 101, 43, 48, 52]),
  /- input_float.cpp 456 -/ (.char, ⟨[], [], [.alignedJoin ⟨95, .right, 1310720⟩ [.float .double [.sci, .p 0, .plus] 13890095209322119168]], false⟩, [95, 95, 95, 95, 95, 95, 95, 95, 95, 95, 95, 95, 95, 95, 45, 49, 101, 43, 48, 52]),
  /- input_float.cpp 457 -/ (.char, ⟨[], [], [.alignedJoin ⟨95, .right, 1310720⟩ [.float .double [.sci, .p 0, .star] 13890095209322119168]], false⟩, [95, 95, 95, 95, 95, 95, 95, 95, 95, 95, 95, 95, 95, 45, 49, 46, 101, 43, 48, 52]),
  /- input_float.cpp 459 -/ (.char, ⟨[], [], [.alignedJoin ⟨95, .right, 1310720⟩ [.float .double [.sci, .p 2] 4638496509959077888]], false⟩, [95, 95, 95, 95, 95, 95, 95, 95, 95, 95, 95, 95, 49, 46, 50, 53, 101, 43, 48, 50]),
  /- input_float.cpp 460 -/ (.char, ⟨[], [], [.alignedJoin ⟨95, .right, 1310720⟩ [.float .double [.sci, .p 1] 4638496509959077888]], false⟩, [95, 95, 95, 95, 95, 95, 95, 95, 95, 95, 95, 95, 95, 49, 46, 50, 101, 43, 48, 50]),
  /- input_float.cpp 461 -/ (.char, ⟨[], [], [.alignedJoin ⟨95, .right, 1310720⟩ [.float .double [.sci, .p 1] 4637792822517301248]], false⟩, [95, 95, 95, 95, 95, 95, 95, 95, 95, 95, 95, 95, 95, 49, 46, 50, 101, 43, 48, 50]),
  /- input_float.cpp 462 -/ (.char, ⟨[], [], [.alignedJoin ⟨95, .right, 1310720⟩ [.float .double [.sci, .p 1] 4698119525135024128]], false⟩, [95, 95, 95, 95, 95, 95, 95, 95, 95, 95, 95, 95, 95, 49, 46, 51, 101, 43, 48, 54]),
  /- input_float.cpp 463 -/ (.char, ⟨[], [], [.alignedJoin ⟨95, .right, 1310720⟩ [.float .double [.sci, .p 4] 4665729626272694272]], false⟩, [95, 95, 95, 95, 95, 95, 95, 95, 95, 95, 56, 46, 49, 57, 50, 56, 101, 43, 48, 51]),
  /- input_float.cpp 464 -/ (.char, ⟨[], [], [.alignedJoin ⟨95, .right, 1310720⟩ [.float .double [.sci, .p 4] 4665729351394787328]], false⟩, [95, 95, 95, 95, 95, 95, 95, 95, 95, 95, 56, 46, 49, 57, 50, 50, 101, 43, 48, 51]),
  /- input_float.cpp 465 -/ (.char, ⟨[], [], [.alignedJoin ⟨95, .right, 1310720⟩ [.float .double [.sci, .p 4] 4652219514585350144]], false⟩, [95, 95, 95, 95, 95, 95, 95, 95, 95, 95, 49, 46, 48, 50, 52, 50, 101, 43, 48, 51]),
  /- input_float.cpp 466 -/ (.char, ⟨[], [], [.alignedJoin ⟨95, .right, 1310720⟩ [.float .double [.sci, .p 1] 4625337571977723904]], false⟩, [95, 95, 95, 95, 95, 95, 95, 95, 95, 95, 95, 95, 95, 49, 46, 55, 101, 43, 48, 49]),
  /- input_float.cpp 467 -/ (.char, ⟨[], [], [.alignedJoin ⟨95, .right, 1310720⟩ [.float .double [.sci, .p 3] 4638496509959077888]], false⟩, [95, 95, 95, 95, 95, 95, 95, 95, 95, 95, 95, 49, 46, 50, 53, 48, 101, 43, 48, 50]),
  /- input_float.cpp 468 -/ (.char, ⟨[], [], [.alignedJoin ⟨95, .right, 1310720⟩ [.float .double [.sci, .p 5] 4589168020290535424]], false⟩, [95, 95, 95, 95, 95, 95, 95, 95, 95, 54, 46, 50, 53, 48, 48, 48, 101, 45, 48, 50]),
  /- input_float.cpp 469 -/ (.char, ⟨[], [], [.alignedJoin ⟨95, .right, 1310720⟩ [.float .double [.sci, .p 6] 4665729626272694272]], false⟩, [95, 95, 95, 95, 95, 95, 95, 95, 56, 46, 49, 57, 50, 55, 53, 48, 101, 43, 48, 51]),
  /- input_float.cpp 471 -/ (.char, ⟨[], [], [.alignedJoin ⟨95, .right, 1310720⟩ [.float .double [.sci, .p 1] 6108168497375173613]], false⟩, [95, 95, 95, 95, 95, 95, 95, 95, 95, 95, 95, 95, 50, 46, 50, 101, 43, 49, 48, 48]),
  /- input_float.cpp 472 -/ (.char, ⟨[], [], [.alignedJoin ⟨95, .right, 1310720⟩ [.float .double [.sci, .p 1] 3116349198220031617]], false⟩, [95, 95, 95, 95, 95, 95, 95, 95, 95, 95, 95, 95, 50, 46, 51, 101, 45, 49, 48, 48]),
  /- input_float.cpp 473 -/ (.char, ⟨[], [], [.alignedJoin ⟨95, .right, 1310720⟩ [.float .double [.sci, .p 2] 4836858804541171712]], false⟩, [95, 95, 95, 95, 95, 95, 95, 95, 95, 95, 95, 95, 50, 46, 50, 53, 101, 43, 49, 53])] = true := by decide +kernel

set_option maxRecDepth 100000 in
example : allPrint [
  /- input_float.cpp 479 -/ (.char, ⟨[], [], [.alignedJoin ⟨95, .right, 1310720⟩ [.float .double [.align (.set 42 720896 .right)] 13831680355561635840]], false⟩, [95, 95, 95, 95, 95, 95, 95, 95, 95, 42, 42, 42, 42, 42, 42, 45, 49, 46, 50, 53]),
  /- input_float.cpp 480 -/ (.char, ⟨[], [], [.alignedJoin ⟨95, .right, 1310720⟩ [.float .double [.align (.set 42 720896 .left)] 13831680355561635840]], false⟩, [95, 95, 95, 95, 95, 95, 95, 95, 95, 45, 49, 46, 50, 53, 42, 42, 42, 42, 42, 42]),
  /- input_float.cpp 481 -/ (.char, ⟨[], [], [.alignedJoin ⟨95, .right, 1310720⟩ [.float .double [.align (.set 42 720896 .center)] 13831680355561635840]], false⟩, [95, 95, 95, 95, 95, 95, 95, 95, 95, 42, 42, 42, 45, 49, 46, 50, 53, 42, 42, 42]),
  /- input_float.cpp 483 -/ (.char, ⟨[], [], [.alignedJoin ⟨95, .right, 1310720⟩ [.float .double [.pad0 11] 13831680355561635840]], false⟩, [95, 95, 95, 95, 95, 95, 95, 95, 95, 45, 48, 48, 48, 48, 48, 48, 49, 46, 50, 53]),
  /- input_float.cpp 484 -/ (.char, ⟨[], [], [.alignedJoin ⟨95, .right, 1310720⟩ [.float .double [.pad0 11, .plus] 4608308318706860032]], false⟩, [95, 95, 95, 95, 95, 95, 95, 95, 95, 43, 48, 48, 48, 48, 48, 48, 49, 46, 50, 53]),
  /- input_float.cpp 486 -/ (.char, ⟨[], [], [.alignedJoin ⟨95, .right, 1310720⟩ [.float .double [.align (.set 42 327680 .right)] 13831680355561635840]], false⟩, [95, 95, 95, 95, 95, 95, 95, 95, 95, 95, 95, 95, 95, 95, 95, 45, 49, 46, 50, 53]),
  /- input_float.cpp 487 -/ (.char, ⟨[], [], [.alignedJoin ⟨95, .right, 1310720⟩ [.float .double [.align (.set 42 327680 .left)] 13831680355561635840]], false⟩, [95, 95, 95, 95, 95, 95, 95, 95, 95, 95, 95, 95, 95, 95, 95, 45, 49, 46, 50, 53]),
  /- input_float.cpp 488 -/ (.char, ⟨[], [], [.alignedJoin ⟨95, .right, 1310720⟩ [.float .double [.align (.set 42 327680 .center)] 13831680355561635840]], false⟩, [95, 95, 95, 95, 95, 95, 95, 95, 95, 95, 95, 95, 95, 95, 95, 45, 49, 46, 50, 53]),
  /- input_float.cpp 490 -/ (.char, ⟨[], [], [.alignedJoin ⟨95, .right, 1310720⟩ [.float .double [.align (.set 268435455 458752 .right)] 13831680355561635840]], false⟩, [95, 95, 95, 95, 95, 95, 95, 95, 95, 95, 95, 95, 95, 239, 191, 189, 239, 191, 189, 45, 49, 46, 50, 53]),
  /- input_float.cpp 492 -/ (.char, ⟨[], [], [.alignedJoin ⟨95, .right, 1310720⟩ [.float .double [.align (.set 268435455 458752 .left)] 13831680355561635840]], false⟩, [95, 95, 95, 95, 95, 95, 95, 95, 95, 95, 95, 95, 95, 45, 49, 46, 50, 53, 239, 191, 189, 239, 191, 189]),
  /- input_float.cpp 494 -/ (.char, ⟨[], [], [.alignedJoin ⟨95, .right, 1310720⟩ [.float .double [.align (.set 268435455 458752 .center)] 13831680355561635840]], false⟩, [95, 95, 95, 95, 95, 95, 95, 95, 95, 95, 95, 95, 95, 239, 191, 189, 45, 49, 46, 50, 53, 239, 191, 189]),
  /- input_float.cpp 499 -/ (.char, ⟨[], [], [.alignedJoin ⟨95, .right, 1310720⟩ [.float .double [.pad0 12] 4607182418800017408]], false⟩, [95, 95, 95, 95, 95, 95, 95, 95, 48, 48, 48, 48, 48, 48, 48, 48, 48, 48, 48, 49]),
  /- input_float.cpp 500 -/ (.char, ⟨[], [], [.alignedJoin ⟨95, .right, 1310720⟩ [.float .double [.pad0 12, .star, .plus] 4607182418800017408]], false⟩, [95, 95, 95, 95, 95, 95, 95, 95, 43, 48, 48, 48, 48, 48, 48, 48, 48, 48, 49, 46]),
  /- input_float.cpp 501 -/ (.char, ⟨[], [], [.alignedJoin ⟨95, .right, 1310720⟩ [.float .double [.pad0 12, .star, .plus, .align (.right 917504)] 4607182418800017408]], false⟩, [95, 95, 95, 95, 95, 95, 32, 32, 43, 48, 48, 48, 48, 48, 48, 48, 48, 48, 49, 46]),
  /- input_float.cpp 502 -/ (.char, ⟨[], [], [.alignedJoin ⟨95, .right, 1310720⟩ [.float .double [.pad0 12, .align (.fill 126), .star, .plus, .align (.right 917504)] 4607182418800017408]], false⟩, [95, 95, 95, 95, 95, 95, 126, 126, 43, 48, 48, 48, 48, 48, 48, 48, 48, 48, 49, 46]),
  /- input_float.cpp 503 -/ (.char, ⟨[], [], [.alignedJoin ⟨95, .right, 1310720⟩ [.float .double [.pad0 12, .fillSign, .star] 4607182418800017408]], false⟩, [95, 95, 95, 95, 95, 95, 95, 95, 32, 48, 48, 48, 48, 48, 48, 48, 48, 48, 49, 46]),
  /- input_float.cpp 504 -/ (.char, ⟨[], [], [.alignedJoin ⟨95, .right, 1310720⟩ [.float .double [.pad0 12, .fillSign, .star, .align (.right 917504)] 4607182418800017408]], false⟩, [95, 95, 95, 95, 95, 95, 32, 32, 32, 48, 48, 48, 48, 48, 48, 48, 48, 48, 49, 46]),
  /- input_float.cpp 505 -/ (.char, ⟨[], [], [.alignedJoin ⟨95, .right, 1310720⟩ [.float .double [.pad0 12, .plus] 4653143104352681984]], false⟩, [95, 95, 95, 95, 95, 95, 95, 95, 43, 48, 48, 48, 48, 49, 50, 51, 52, 46, 50, 53]),
  /- input_float.cpp 506 -/ (.char, ⟨[], [], [.alignedJoin ⟨95, .right, 1310720⟩ [.float .double [.pad0 12, .fixed, .p 4, .star, .plus] 4653143104352681984]], false⟩, [95, 95, 95, 95, 95, 95, 95, 95, 43, 48, 48, 49, 50, 51, 52, 46, 50, 53, 48, 48]),
  /- input_float.cpp 507 -/ (.char, ⟨[], [], [.alignedJoin ⟨95, .right, 1310720⟩ [.float .double [.pad0 12] 4906019910204099648]], false⟩, [95, 95, 95, 95, 95, 95, 95, 95, 48, 48, 48, 48, 48, 48, 48, 49, 101, 43, 50, 48]),
  /- input_float.cpp 508 -/ (.char, ⟨[], [], [.alignedJoin ⟨95, .right, 1310720⟩ [.float .double [.pad0 12, .star, .plus] 4906019910204099648]], false⟩, [95, 95, 95, 95, 95, 95, 95, 95, 43, 48, 48, 48, 48, 48, 49, 46, 101, 43, 50, 48]),
  /- input_float.cpp 509 -/ (.char, ⟨[], [], [.alignedJoin ⟨95, .right, 1310720⟩ [.float .double [.pad0 12, .fillSign, .star] 4906019910204099648]], false⟩, [95, 95, 95, 95, 95, 95, 95, 95, 32, 48, 48, 48, 48, 48, 49, 46, 101, 43, 50, 48]),
  /- input_float.cpp 510 -/ (.char, ⟨[], [], [.alignedJoin ⟨95, .right, 1310720⟩ [.float .double [.pad0 12] 4907545789110349648]], false⟩, [95, 95, 95, 95, 95, 95, 95, 95, 48, 48, 48, 48, 49, 46, 50, 53, 101, 43, 50, 48]),
  /- input_float.cpp 515 -/ (.char, ⟨[], [], [.alignedJoin ⟨95, .right, 1310720⟩ [.float .double [.pad0 10] 4607745368753438720]], false⟩, [95, 95, 95, 95, 95, 95, 95, 95, 95, 95, 48, 48, 48, 48, 48, 49, 46, 49, 50, 53]),
  /- input_float.cpp 516 -/ (.char, ⟨[], [], [.alignedJoin ⟨95, .right, 1310720⟩ [.float .double [.pad0 10, .fillSign] 4607745368753438720]], false⟩, [95, 95, 95, 95, 95, 95, 95, 95, 95, 95, 32, 48, 48, 48, 48, 49, 46, 49, 50, 53]),
  /- input_float.cpp 517 -/ (.char, ⟨[], [], [.alignedJoin ⟨95, .right, 1310720⟩ [.float .double [.align (.set 126 851968 .center), .fillSign] 4607745368753438720]], false⟩, [95, 95, 95, 95, 95, 95, 95, 126, 126, 126, 126, 49, 46, 49, 50, 53, 126, 126, 126, 126]),
  /- input_float.cpp 518 -/ (.char, ⟨[], [], [.alignedJoin ⟨95, .right, 1310720⟩ [.float .double [.align (.set 126 917504 .center), .fillSign] 4607745368753438720]], false⟩, [95, 95, 95, 95, 95, 95, 126, 126, 126, 126, 126, 49, 46, 49, 50, 53, 126, 126, 126, 126]),
  /- input_float.cpp 519 -/ (.char, ⟨[], [], [.alignedJoin ⟨95, .right, 1310720⟩ [.float .double [.align (.set 126 917504 .left), .fillSign] 4607745368753438720]], false⟩, [95, 95, 95, 95, 95, 95, 126, 49, 46, 49, 50, 53, 126, 126, 126, 126, 126, 126, 126, 126]),
  /- input_float.cpp 520 -/ (.char, ⟨[], [], [.alignedJoin ⟨95, .right, 1310720⟩ [.float .double [.align (.set 126 917504 .right), .fillSign] 4607745368753438720]], false⟩, [95, 95, 95, 95, 95, 95, 126, 126, 126, 126, 126, 126, 126, 126, 126, 49, 46, 49, 50, 53]),
  /- input_float.cpp 522 -/ (.char, ⟨[], [], [.alignedJoin ⟨95, .right, 1310720⟩ [.float .double [.align (.set 126 917504 .center), .pad0 10] 4607745368753438720]], false⟩, [95, 95, 95, 95, 95, 95, 126, 126, 48, 48, 48, 48, 48, 49, 46, 49, 50, 53, 126, 126]),
  /- input_float.cpp 523 -/ (.char, ⟨[], [], [.alignedJoin ⟨95, .right, 1310720⟩ [.float .double [.align (.set 126 917504 .center), .pad0 10, .fillSign] 4607745368753438720]], false⟩, [95, 95, 95, 95, 95, 95, 126, 126, 126, 48, 48, 48, 48, 49, 46, 49, 50, 53, 126, 126]),
  /- input_float.cpp 524 -/ (.char, ⟨[], [], [.alignedJoin ⟨95, .right, 1310720⟩ [.float .double [.align (.set 126 917504 .right), .pad0 10, .fillSign] 4607745368753438720]], false⟩, [95, 95, 95, 95, 95, 95, 126, 126, 126, 126, 126, 48, 48, 48, 48, 49, 46, 49, 50, 53]),
  /- input_float.cpp 525 -/ (.char, ⟨[], [], [.alignedJoin ⟨95, .right, 1310720⟩ [.float .double [.align (.set 126 917504 .left), .pad0 10, .fillSign] 4607745368753438720]], false⟩, [95, 95, 95, 95, 95, 95, 126, 48, 48, 48, 48, 49, 46, 49, 50, 53, 126, 126, 126, 126]),
  /- input_float.cpp 527 -/ (.char, ⟨[], [], [.alignedJoin ⟨95, .right, 1310720⟩ [.float .double [.fixed, .p 6] 4607745368753438720]], false⟩, [95, 95, 95, 95, 95, 95, 95, 95, 95, 95, 95, 95, 49, 46, 49, 50, 53, 48, 48, 48]),
  /- input_float.cpp 528 -/ (.char, ⟨[], [], [.alignedJoin ⟨95, .right, 1310720⟩ [.float .double [.fixed, .p 6, .fillSign] 4607745368753438720]], false⟩, [95, 95, 95, 95, 95, 95, 95, 95, 95, 95, 95, 32, 49, 46, 49, 50, 53, 48, 48, 48]),
  /- input_float.cpp 562 -/ (.char, ⟨[], [], [.alignedJoin ⟨95, .right, 1638400⟩ [.float .float [.fixed, .plus] 0]], false⟩, [95, 95, 95, 95, 95, 95, 95, 95, 95, 95, 95, 95, 95, 95, 95, 95, 95, 95, 95, 95, 95, 95, 95, 43, 48]),
  /- input_float.cpp 563 -/ (.char, ⟨[], [], [.alignedJoin ⟨95, .right, 1638400⟩ [.float .double [.gen, .star, .plus] 4039728865939746475]], false⟩, [95, 95, 95, 95, 95, 95, 95, 95, 95, 95, 95, 43, 49, 46, 49, 55, 53, 52, 57, 52, 52, 101, 45, 51, 56]),
  /- input_float.cpp 564 -/ (.char, ⟨[], [], [.alignedJoin ⟨95, .right, 1638400⟩ [.float .float [.fixed, .plus] 1067450368]], false⟩, [95, 95, 95, 95, 95, 95, 95, 95, 95, 95, 95, 95, 95, 95, 95, 95, 95, 95, 95, 95, 43, 49, 46, 50, 53]),
  /- input_float.cpp 565 -/ (.char, ⟨[], [], [.alignedJoin ⟨95, .right, 1638400⟩ [.float .float [.fixed, .p 6, .plus] 1067450368]], false⟩, [95, 95, 95, 95, 95, 95, 95, 95, 95, 95, 95, 95, 95, 95, 95, 95, 43, 49, 46, 50, 53, 48, 48, 48, 48]),
  /- input_float.cpp 566 -/ (.char, ⟨[], [], [.alignedJoin ⟨95, .right, 1638400⟩ [.float .float [.fixed, .plus] 1036831949]], false⟩, [95, 95, 95, 95, 95, 95, 95, 95, 95, 95, 95, 95, 95, 95, 95, 95, 95, 95, 95, 95, 95, 43, 48, 46, 49])] = true := by decide +kernel

set_option maxRecDepth 100000 in
example : allPrint [
  /- input_float.cpp 567 -/ (.char, ⟨[], [], [.alignedJoin ⟨95, .right, 1638400⟩ [.float .float [.sci, .star, .plus] 1621981420]], false⟩, [95, 95, 95, 95, 95, 95, 95, 95, 95, 95, 95, 95, 95, 95, 95, 95, 95, 95, 43, 49, 46, 101, 43, 50, 48]),
  /- input_float.cpp 568 -/ (.char, ⟨[], [], [.alignedJoin ⟨95, .right, 1638400⟩ [.float .float [.sci, .p 6, .plus] 1621981420]], false⟩, [95, 95, 95, 95, 95, 95, 95, 95, 95, 95, 95, 95, 43, 49, 46, 48, 48, 48, 48, 48, 48, 101, 43, 50, 48]),
  /- input_float.cpp 569 -/ (.char, ⟨[], [], [.alignedJoin ⟨95, .right, 1638400⟩ [.float .float [.gen, .plus] 1067450368]], false⟩, [95, 95, 95, 95, 95, 95, 95, 95, 95, 95, 95, 95, 95, 95, 95, 95, 95, 95, 95, 95, 43, 49, 46, 50, 53]),
  /- input_float.cpp 570 -/ (.char, ⟨[], [], [.alignedJoin ⟨95, .right, 1638400⟩ [.float .float [.gen, .p 4, .star, .plus] 1067450368]], false⟩, [95, 95, 95, 95, 95, 95, 95, 95, 95, 95, 95, 95, 95, 95, 95, 95, 95, 95, 95, 43, 49, 46, 50, 53, 48]),
  /- input_float.cpp 572 -/ (.char, ⟨[], [], [.alignedJoin ⟨95, .right, 1638400⟩ [.float .double [.hex] 4611681620380876800]], false⟩, [95, 95, 95, 95, 95, 95, 95, 95, 95, 95, 95, 95, 95, 95, 95, 48, 120, 49, 46, 102, 102, 99, 112, 43, 48]),
  /- input_float.cpp 573 -/ (.char, ⟨[], [], [.alignedJoin ⟨95, .right, 1638400⟩ [.float .double [.hex] 5181580272004497408]], false⟩, [95, 95, 95, 95, 95, 95, 95, 95, 95, 95, 48, 120, 49, 46, 56, 97, 98, 99, 100, 101, 112, 43, 49, 50, 55]),
  /- input_float.cpp 574 -/ (.char, ⟨[], [], [.alignedJoin ⟨95, .right, 1638400⟩ [.float .double [.hex] 13265541603134537728]], false⟩, [95, 95, 95, 95, 95, 95, 95, 95, 95, 45, 48, 120, 49, 46, 56, 97, 98, 99, 100, 101, 112, 45, 49, 50, 54]),
  /- input_float.cpp 576 -/ (.char, ⟨[], [], [.alignedJoin ⟨95, .right, 1638400⟩ [.float .float [.hex] 1]], false⟩, [95, 95, 95, 95, 95, 95, 95, 95, 95, 95, 48, 120, 48, 46, 48, 48, 48, 48, 48, 50, 112, 45, 49, 50, 54]),
  /- input_float.cpp 577 -/ (.char, ⟨[], [], [.alignedJoin ⟨95, .right, 1638400⟩ [.float .float [.hex] 2139095039]], false⟩, [95, 95, 95, 95, 95, 95, 95, 95, 95, 95, 48, 120, 49, 46, 102, 102, 102, 102, 102, 101, 112, 43, 49, 50, 55]),
  /- input_float.cpp 584 -/ (.char, ⟨[], [], [.float .double [.hex] 0], false⟩, [48, 120, 48, 112, 43, 48]),
  /- input_float.cpp 585 -/ (.char, ⟨[], [], [.alignedJoin ⟨95, .right, 1638400⟩ [.float .double [.hex] 0]], false⟩, [95, 95, 95, 95, 95, 95, 95, 95, 95, 95, 95, 95, 95, 95, 95, 95, 95, 95, 95, 48, 120, 48, 112, 43, 48]),
  /- input_float.cpp 586 -/ (.char, ⟨[], [], [.alignedJoin ⟨95, .right, 1638400⟩ [.float .double [.hex, .plus] 0]], false⟩, [95, 95, 95, 95, 95, 95, 95, 95, 95, 95, 95, 95, 95, 95, 95, 95, 95, 95, 43, 48, 120, 48, 112, 43, 48]),
  /- input_float.cpp 587 -/ (.char, ⟨[], [], [.alignedJoin ⟨95, .right, 1638400⟩ [.float .double [.hex, .star] 0]], false⟩, [95, 95, 95, 95, 95, 95, 95, 95, 95, 95, 95, 95, 95, 95, 95, 95, 95, 95, 48, 120, 48, 46, 112, 43, 48]),
  /- input_float.cpp 588 -/ (.char, ⟨[], [], [.alignedJoin ⟨95, .right, 1638400⟩ [.float .double [.hex, .star, .plus] 0]], false⟩, [95, 95, 95, 95, 95, 95, 95, 95, 95, 95, 95, 95, 95, 95, 95, 95, 95, 43, 48, 120, 48, 46, 112, 43, 48]),
  /- input_float.cpp 589 -/ (.char, ⟨[], [], [.alignedJoin ⟨95, .right, 1638400⟩ [.float .double [.hex, .p 3] 0]], false⟩, [95, 95, 95, 95, 95, 95, 95, 95, 95, 95, 95, 95, 95, 95, 95, 48, 120, 48, 46, 48, 48, 48, 112, 43, 48]),
  /- input_float.cpp 590 -/ (.char, ⟨[], [], [.alignedJoin ⟨95, .right, 1638400⟩ [.float .double [.hex] 13817043656772681728]], false⟩, [95, 95, 95, 95, 95, 95, 95, 95, 95, 95, 95, 95, 95, 95, 95, 95, 95, 95, 45, 48, 120, 49, 112, 45, 51]),
  /- input_float.cpp 591 -/ (.char, ⟨[], [], [.alignedJoin ⟨95, .right, 1638400⟩ [.float .double [.hex] 4656722014701092864]], false⟩, [95, 95, 95, 95, 95, 95, 95, 95, 95, 95, 95, 95, 95, 95, 95, 95, 95, 95, 48, 120, 49, 112, 43, 49, 49]),
  /- input_float.cpp 592 -/ (.char, ⟨[], [], [.alignedJoin ⟨95, .right, 1638400⟩ [.float .double [.hex] 9218868437227405311]], false⟩, [95, 95, 48, 120, 49, 46, 102, 102, 102, 102, 102, 102, 102, 102, 102, 102, 102, 102, 102, 112, 43, 49, 48, 50, 51]),
  /- input_float.cpp 594 -/ (.char, ⟨[], [], [.alignedJoin ⟨95, .right, 1638400⟩ [.float .double [.hex] 1]], false⟩, [95, 95, 48, 120, 48, 46, 48, 48, 48, 48, 48, 48, 48, 48, 48, 48, 48, 48, 49, 112, 45, 49, 48, 50, 50]),
  /- input_float.cpp 595 -/ (.char, ⟨[], [], [.alignedJoin ⟨95, .right, 1638400⟩ [.float .double [.hex] 4503599627370496]], false⟩, [95, 95, 95, 95, 95, 95, 95, 95, 95, 95, 95, 95, 95, 95, 95, 95, 48, 120, 49, 112, 45, 49, 48, 50, 50]),
  /- input_float.cpp 596 -/ (.char, ⟨[], [], [.alignedJoin ⟨95, .right, 1638400⟩ [.float .double [.hex, .star] 4503599627370496]], false⟩, [95, 95, 95, 95, 95, 95, 95, 95, 95, 95, 95, 95, 95, 95, 95, 48, 120, 49, 46, 112, 45, 49, 48, 50, 50]),
  /- input_float.cpp 597 -/ (.char, ⟨[], [], [.alignedJoin ⟨95, .right, 1638400⟩ [.float .double [.hex, .p 3, .star] 4503599627370496]], false⟩, [95, 95, 95, 95, 95, 95, 95, 95, 95, 95, 95, 95, 48, 120, 49, 46, 48, 48, 48, 112, 45, 49, 48, 50, 50]),
  /- input_float.cpp 598 -/ (.char, ⟨[], [], [.alignedJoin ⟨95, .right, 1638400⟩ [.float .double [.hex] 618475290624]], false⟩, [95, 95, 95, 95, 95, 95, 95, 95, 95, 95, 95, 48, 120, 48, 46, 48, 48, 48, 57, 112, 45, 49, 48, 50, 50]),
  /- input_float.cpp 600 -/ (.char, ⟨[], [], [.alignedJoin ⟨95, .right, 1638400⟩ [.float .double [.hex] 4609434218613702656]], false⟩, [95, 95, 95, 95, 95, 95, 95, 95, 95, 95, 95, 95, 95, 95, 95, 95, 95, 48, 120, 49, 46, 56, 112, 43, 48]),
  /- input_float.cpp 601 -/ (.char, ⟨[], [], [.alignedJoin ⟨95, .right, 1638400⟩ [.float .double [.hex] 4610560118520545280]], false⟩, [95, 95, 95, 95, 95, 95, 95, 95, 95, 95, 95, 95, 95, 95, 95, 95, 95, 48, 120, 49, 46, 99, 112, 43, 48]),
  /- input_float.cpp 602 -/ (.char, ⟨[], [], [.alignedJoin ⟨95, .right, 1638400⟩ [.float .double [.hex] 4611123068473966592]], false⟩, [95, 95, 95, 95, 95, 95, 95, 95, 95, 95, 95, 95, 95, 95, 95, 95, 95, 48, 120, 49, 46, 101, 112, 43, 48]),
  /- input_float.cpp 603 -/ (.char, ⟨[], [], [.alignedJoin ⟨95, .right, 1638400⟩ [.float .double [.hex] 4611404543450677248]], false⟩, [95, 95, 95, 95, 95, 95, 95, 95, 95, 95, 95, 95, 95, 95, 95, 95, 95, 48, 120, 49, 46, 102, 112, 43, 48]),
  /- input_float.cpp 604 -/ (.char, ⟨[], [], [.alignedJoin ⟨95, .right, 1638400⟩ [.float .double [.hex] 4611545280939032576]], false⟩, [95, 95, 95, 95, 95, 95, 95, 95, 95, 95, 95, 95, 95, 95, 95, 95, 48, 120, 49, 46, 102, 56, 112, 43, 48]),
  /- input_float.cpp 605 -/ (.char, ⟨[], [], [.alignedJoin ⟨95, .right, 1638400⟩ [.float .double [.hex] 4611615649683210240]], false⟩, [95, 95, 95, 95, 95, 95, 95, 95, 95, 95, 95, 95, 95, 95, 95, 95, 48, 120, 49, 46, 102, 99, 112, 43, 48]),
  /- input_float.cpp 606 -/ (.char, ⟨[], [], [.alignedJoin ⟨95, .right, 1638400⟩ [.float .double [.hex] 4611650834055299072]], false⟩, [95, 95, 95, 95, 95, 95, 95, 95, 95, 95, 95, 95, 95, 95, 95, 95, 48, 120, 49, 46, 102, 101, 112, 43, 48]),
  /- input_float.cpp 607 -/ (.char, ⟨[], [], [.alignedJoin ⟨95, .right, 1638400⟩ [.float .double [.hex] 4611668426241343488]], false⟩, [95, 95, 95, 95, 95, 95, 95, 95, 95, 95, 95, 95, 95, 95, 95, 95, 48, 120, 49, 46, 102, 102, 112, 43, 48]),
  /- input_float.cpp 608 -/ (.char, ⟨[], [], [.alignedJoin ⟨95, .right, 1638400⟩ [.float .double [.hex] 4611677222334365696]], false⟩, [95, 95, 95, 95, 95, 95, 95, 95, 95, 95, 95, 95, 95, 95, 95, 48, 120, 49, 46, 102, 102, 56, 112, 43, 48]),
  /- input_float.cpp 609 -/ (.char, ⟨[], [], [.alignedJoin ⟨95, .right, 1638400⟩ [.float .double [.hex] 4611681620380876800]], false⟩, [95, 95, 95, 95, 95, 95, 95, 95, 95, 95, 95, 95, 95, 95, 95, 48, 120, 49, 46, 102, 102, 99, 112, 43, 48]),
  /- input_float.cpp 610 -/ (.char, ⟨[], [], [.alignedJoin ⟨95, .right, 1638400⟩ [.float .double [.hex] 4611683819404132352]], false⟩, [95, 95, 95, 95, 95, 95, 95, 95, 95, 95, 95, 95, 95, 95, 95, 48, 120, 49, 46, 102, 102, 101, 112, 43, 48]),
  /- input_float.cpp 611 -/ (.char, ⟨[], [], [.alignedJoin ⟨95, .right, 1638400⟩ [.float .double [.hex] 4611684918915760128]], false⟩, [95, 95, 95, 95, 95, 95, 95, 95, 95, 95, 95, 95, 95, 95, 95, 48, 120, 49, 46, 102, 102, 102, 112, 43, 48])] = true := by decide +kernel

end Strf.Program
