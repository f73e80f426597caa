import Verif.Sbc.Base
/-!
# The single-byte charsets of include/strf/detail/single_byte_charsets.hpp (lines 337–2440)

The tables below were extracted from the source by a script; the functions were written by hand after it. `decode`
is applied to `std::uint8_t` values only, so that the indices into `ext` are in range (the tables have exactly the
needed length, see the theorem `decode_published`).
-/
namespace Strf.Sbc

/-- single_byte_charsets.hpp 415–427: `ext` of impl_iso_8859_2. -/
def ext_iso_8859_2 : List Nat := [
  0x104, 0x2D8, 0x141, 0xA4, 0x13D, 0x15A, 0xA7, 0xA8, 0x160, 0x15E, 0x164, 0x179, 0xAD, 0x17D, 0x17B, 0xB0, 0x105,
  0x2DB, 0x142, 0xB4, 0x13E, 0x15B, 0x2C7, 0xB8, 0x161, 0x15F, 0x165, 0x17A, 0x2DD, 0x17E, 0x17C, 0x154, 0xC1,
  0xC2, 0x102, 0xC4, 0x139, 0x106, 0xC7, 0x10C, 0xC9, 0x118, 0xCB, 0x11A, 0xCD, 0xCE, 0x10E, 0x110, 0x143, 0x147,
  0xD3, 0xD4, 0x150, 0xD6, 0xD7, 0x158, 0x16E, 0xDA, 0x170, 0xDC, 0xDD, 0x162, 0xDF, 0x155, 0xE1, 0xE2, 0x103,
  0xE4, 0x13A, 0x107, 0xE7, 0x10D, 0xE9, 0x119, 0xEB, 0x11B, 0xED, 0xEE, 0x10F, 0x111, 0x144, 0x148, 0xF3, 0xF4,
  0x151, 0xF6, 0xF7, 0x159, 0x16F, 0xFA, 0x171, 0xFC, 0xFD, 0x163, 0x2D9]

/-- single_byte_charsets.hpp 441–465: `char_map` of impl_iso_8859_2. -/
def map_iso_8859_2 : List (Nat × Nat) := [
  (0xA4, 0xA4), (0xA7, 0xA7), (0xA8, 0xA8), (0xAD, 0xAD), (0xB0, 0xB0), (0xB4, 0xB4), (0xB8, 0xB8), (0xC1, 0xC1),
  (0xC2, 0xC2), (0xC4, 0xC4), (0xC7, 0xC7), (0xC9, 0xC9), (0xCB, 0xCB), (0xCD, 0xCD), (0xCE, 0xCE), (0xD3, 0xD3),
  (0xD4, 0xD4), (0xD6, 0xD6), (0xD7, 0xD7), (0xDA, 0xDA), (0xDC, 0xDC), (0xDD, 0xDD), (0xDF, 0xDF), (0xE1, 0xE1),
  (0xE2, 0xE2), (0xE4, 0xE4), (0xE7, 0xE7), (0xE9, 0xE9), (0xEB, 0xEB), (0xED, 0xED), (0xEE, 0xEE), (0xF3, 0xF3),
  (0xF4, 0xF4), (0xF6, 0xF6), (0xF7, 0xF7), (0xFA, 0xFA), (0xFC, 0xFC), (0xFD, 0xFD), (0x102, 0xC3), (0x103, 0xE3),
  (0x104, 0xA1), (0x105, 0xB1), (0x106, 0xC6), (0x107, 0xE6), (0x10C, 0xC8), (0x10D, 0xE8), (0x10E, 0xCF),
  (0x10F, 0xEF), (0x110, 0xD0), (0x111, 0xF0), (0x118, 0xCA), (0x119, 0xEA), (0x11A, 0xCC), (0x11B, 0xEC),
  (0x139, 0xC5), (0x13A, 0xE5), (0x13D, 0xA5), (0x13E, 0xB5), (0x141, 0xA3), (0x142, 0xB3), (0x143, 0xD1),
  (0x144, 0xF1), (0x147, 0xD2), (0x148, 0xF2), (0x150, 0xD5), (0x151, 0xF5), (0x154, 0xC0), (0x155, 0xE0),
  (0x158, 0xD8), (0x159, 0xF8), (0x15A, 0xA6), (0x15B, 0xB6), (0x15E, 0xAA), (0x15F, 0xBA), (0x160, 0xA9),
  (0x161, 0xB9), (0x162, 0xDE), (0x163, 0xFE), (0x164, 0xAB), (0x165, 0xBB), (0x16E, 0xD9), (0x16F, 0xF9),
  (0x170, 0xDB), (0x171, 0xFB), (0x179, 0xAC), (0x17A, 0xBC), (0x17B, 0xAF), (0x17C, 0xBF), (0x17D, 0xAE),
  (0x17E, 0xBE), (0x2C7, 0xB7), (0x2D8, 0xA2), (0x2D9, 0xFF), (0x2DB, 0xB2), (0x2DD, 0xBD), (0xFFFD, 0x3F)]

/-- single_byte_charsets.hpp 505–517: `ext` of impl_iso_8859_3. -/
def ext_iso_8859_3 : List Nat := [
  0x126, 0x2D8, 0xA3, 0xA4, 0xFFFD, 0x124, 0xA7, 0xA8, 0x130, 0x15E, 0x11E, 0x134, 0xAD, 0xFFFD, 0x17B, 0xB0,
  0x127, 0xB2, 0xB3, 0xB4, 0xB5, 0x125, 0xB7, 0xB8, 0x131, 0x15F, 0x11F, 0x135, 0xBD, 0xFFFD, 0x17C, 0xC0, 0xC1,
  0xC2, 0xFFFD, 0xC4, 0x10A, 0x108, 0xC7, 0xC8, 0xC9, 0xCA, 0xCB, 0xCC, 0xCD, 0xCE, 0xCF, 0xFFFD, 0xD1, 0xD2, 0xD3,
  0xD4, 0x120, 0xD6, 0xD7, 0x11C, 0xD9, 0xDA, 0xDB, 0xDC, 0x16C, 0x15C, 0xDF, 0xE0, 0xE1, 0xE2, 0xFFFD, 0xE4,
  0x10B, 0x109, 0xE7, 0xE8, 0xE9, 0xEA, 0xEB, 0xEC, 0xED, 0xEE, 0xEF, 0xFFFD, 0xF1, 0xF2, 0xF3, 0xF4, 0x121, 0xF6,
  0xF7, 0x11D, 0xF9, 0xFA, 0xFB, 0xFC, 0x16D, 0x15D, 0x2D9]

/-- single_byte_charsets.hpp 532–555: `char_map` of impl_iso_8859_3. -/
def map_iso_8859_3 : List (Nat × Nat) := [
  (0xA3, 0xA3), (0xA4, 0xA4), (0xA7, 0xA7), (0xA8, 0xA8), (0xAD, 0xAD), (0xB0, 0xB0), (0xB2, 0xB2), (0xB3, 0xB3),
  (0xB4, 0xB4), (0xB5, 0xB5), (0xB7, 0xB7), (0xB8, 0xB8), (0xBD, 0xBD), (0xC0, 0xC0), (0xC1, 0xC1), (0xC2, 0xC2),
  (0xC4, 0xC4), (0xC7, 0xC7), (0xC8, 0xC8), (0xC9, 0xC9), (0xCA, 0xCA), (0xCB, 0xCB), (0xCC, 0xCC), (0xCD, 0xCD),
  (0xCE, 0xCE), (0xCF, 0xCF), (0xD1, 0xD1), (0xD2, 0xD2), (0xD3, 0xD3), (0xD4, 0xD4), (0xD6, 0xD6), (0xD7, 0xD7),
  (0xD9, 0xD9), (0xDA, 0xDA), (0xDB, 0xDB), (0xDC, 0xDC), (0xDF, 0xDF), (0xE0, 0xE0), (0xE1, 0xE1), (0xE2, 0xE2),
  (0xE4, 0xE4), (0xE7, 0xE7), (0xE8, 0xE8), (0xE9, 0xE9), (0xEA, 0xEA), (0xEB, 0xEB), (0xEC, 0xEC), (0xED, 0xED),
  (0xEE, 0xEE), (0xEF, 0xEF), (0xF1, 0xF1), (0xF2, 0xF2), (0xF3, 0xF3), (0xF4, 0xF4), (0xF6, 0xF6), (0xF7, 0xF7),
  (0xF9, 0xF9), (0xFA, 0xFA), (0xFB, 0xFB), (0xFC, 0xFC), (0x108, 0xC6), (0x109, 0xE6), (0x10A, 0xC5),
  (0x10B, 0xE5), (0x11C, 0xD8), (0x11D, 0xF8), (0x11E, 0xAB), (0x11F, 0xBB), (0x120, 0xD5), (0x121, 0xF5),
  (0x124, 0xA6), (0x125, 0xB6), (0x126, 0xA1), (0x127, 0xB1), (0x130, 0xA9), (0x131, 0xB9), (0x134, 0xAC),
  (0x135, 0xBC), (0x15C, 0xDE), (0x15D, 0xFE), (0x15E, 0xAA), (0x15F, 0xBA), (0x16C, 0xDD), (0x16D, 0xFD),
  (0x17B, 0xAF), (0x17C, 0xBF), (0x2D8, 0xA2), (0x2D9, 0xFF), (0xFFFD, 0x3F)]

/-- single_byte_charsets.hpp 593–605: `ext` of impl_iso_8859_4. -/
def ext_iso_8859_4 : List Nat := [
  0x104, 0x138, 0x156, 0xA4, 0x128, 0x13B, 0xA7, 0xA8, 0x160, 0x112, 0x122, 0x166, 0xAD, 0x17D, 0xAF, 0xB0, 0x105,
  0x2DB, 0x157, 0xB4, 0x129, 0x13C, 0x2C7, 0xB8, 0x161, 0x113, 0x123, 0x167, 0x14A, 0x17E, 0x14B, 0x100, 0xC1,
  0xC2, 0xC3, 0xC4, 0xC5, 0xC6, 0x12E, 0x10C, 0xC9, 0x118, 0xCB, 0x116, 0xCD, 0xCE, 0x12A, 0x110, 0x145, 0x14C,
  0x136, 0xD4, 0xD5, 0xD6, 0xD7, 0xD8, 0x172, 0xDA, 0xDB, 0xDC, 0x168, 0x16A, 0xDF, 0x101, 0xE1, 0xE2, 0xE3, 0xE4,
  0xE5, 0xE6, 0x12F, 0x10D, 0xE9, 0x119, 0xEB, 0x117, 0xED, 0xEE, 0x12B, 0x111, 0x146, 0x14D, 0x137, 0xF4, 0xF5,
  0xF6, 0xF7, 0xF8, 0x173, 0xFA, 0xFB, 0xFC, 0x169, 0x16B, 0x2D9]

/-- single_byte_charsets.hpp 619–643: `char_map` of impl_iso_8859_4. -/
def map_iso_8859_4 : List (Nat × Nat) := [
  (0xA4, 0xA4), (0xA7, 0xA7), (0xA8, 0xA8), (0xAD, 0xAD), (0xAF, 0xAF), (0xB0, 0xB0), (0xB4, 0xB4), (0xB8, 0xB8),
  (0xC1, 0xC1), (0xC2, 0xC2), (0xC3, 0xC3), (0xC4, 0xC4), (0xC5, 0xC5), (0xC6, 0xC6), (0xC9, 0xC9), (0xCB, 0xCB),
  (0xCD, 0xCD), (0xCE, 0xCE), (0xD4, 0xD4), (0xD5, 0xD5), (0xD6, 0xD6), (0xD7, 0xD7), (0xD8, 0xD8), (0xDA, 0xDA),
  (0xDB, 0xDB), (0xDC, 0xDC), (0xDF, 0xDF), (0xE1, 0xE1), (0xE2, 0xE2), (0xE3, 0xE3), (0xE4, 0xE4), (0xE5, 0xE5),
  (0xE6, 0xE6), (0xE9, 0xE9), (0xEB, 0xEB), (0xED, 0xED), (0xEE, 0xEE), (0xF4, 0xF4), (0xF5, 0xF5), (0xF6, 0xF6),
  (0xF7, 0xF7), (0xF8, 0xF8), (0xFA, 0xFA), (0xFB, 0xFB), (0xFC, 0xFC), (0x100, 0xC0), (0x101, 0xE0),
  (0x104, 0xA1), (0x105, 0xB1), (0x10C, 0xC8), (0x10D, 0xE8), (0x110, 0xD0), (0x111, 0xF0), (0x112, 0xAA),
  (0x113, 0xBA), (0x116, 0xCC), (0x117, 0xEC), (0x118, 0xCA), (0x119, 0xEA), (0x122, 0xAB), (0x123, 0xBB),
  (0x128, 0xA5), (0x129, 0xB5), (0x12A, 0xCF), (0x12B, 0xEF), (0x12E, 0xC7), (0x12F, 0xE7), (0x136, 0xD3),
  (0x137, 0xF3), (0x138, 0xA2), (0x13B, 0xA6), (0x13C, 0xB6), (0x145, 0xD1), (0x146, 0xF1), (0x14A, 0xBD),
  (0x14B, 0xBF), (0x14C, 0xD2), (0x14D, 0xF2), (0x156, 0xA3), (0x157, 0xB3), (0x160, 0xA9), (0x161, 0xB9),
  (0x166, 0xAC), (0x167, 0xBC), (0x168, 0xDD), (0x169, 0xFD), (0x16A, 0xDE), (0x16B, 0xFE), (0x172, 0xD9),
  (0x173, 0xF9), (0x17D, 0xAE), (0x17E, 0xBE), (0x2C7, 0xB7), (0x2D9, 0xFF), (0x2DB, 0xB2), (0xFFFD, 0x3F)]

/-- single_byte_charsets.hpp 681–693: `ext` of impl_iso_8859_5. -/
def ext_iso_8859_5 : List Nat := [
  0x401, 0x402, 0x403, 0x404, 0x405, 0x406, 0x407, 0x408, 0x409, 0x40A, 0x40B, 0x40C, 0xAD, 0x40E, 0x40F, 0x410,
  0x411, 0x412, 0x413, 0x414, 0x415, 0x416, 0x417, 0x418, 0x419, 0x41A, 0x41B, 0x41C, 0x41D, 0x41E, 0x41F, 0x420,
  0x421, 0x422, 0x423, 0x424, 0x425, 0x426, 0x427, 0x428, 0x429, 0x42A, 0x42B, 0x42C, 0x42D, 0x42E, 0x42F, 0x430,
  0x431, 0x432, 0x433, 0x434, 0x435, 0x436, 0x437, 0x438, 0x439, 0x43A, 0x43B, 0x43C, 0x43D, 0x43E, 0x43F, 0x440,
  0x441, 0x442, 0x443, 0x444, 0x445, 0x446, 0x447, 0x448, 0x449, 0x44A, 0x44B, 0x44C, 0x44D, 0x44E, 0x44F, 0x2116,
  0x451, 0x452, 0x453, 0x454, 0x455, 0x456, 0x457, 0x458, 0x459, 0x45A, 0x45B, 0x45C, 0xA7, 0x45E, 0x45F]

/-- single_byte_charsets.hpp 707–731: `char_map` of impl_iso_8859_5. -/
def map_iso_8859_5 : List (Nat × Nat) := [
  (0xA7, 0xFD), (0xAD, 0xAD), (0x401, 0xA1), (0x402, 0xA2), (0x403, 0xA3), (0x404, 0xA4), (0x405, 0xA5),
  (0x406, 0xA6), (0x407, 0xA7), (0x408, 0xA8), (0x409, 0xA9), (0x40A, 0xAA), (0x40B, 0xAB), (0x40C, 0xAC),
  (0x40E, 0xAE), (0x40F, 0xAF), (0x410, 0xB0), (0x411, 0xB1), (0x412, 0xB2), (0x413, 0xB3), (0x414, 0xB4),
  (0x415, 0xB5), (0x416, 0xB6), (0x417, 0xB7), (0x418, 0xB8), (0x419, 0xB9), (0x41A, 0xBA), (0x41B, 0xBB),
  (0x41C, 0xBC), (0x41D, 0xBD), (0x41E, 0xBE), (0x41F, 0xBF), (0x420, 0xC0), (0x421, 0xC1), (0x422, 0xC2),
  (0x423, 0xC3), (0x424, 0xC4), (0x425, 0xC5), (0x426, 0xC6), (0x427, 0xC7), (0x428, 0xC8), (0x429, 0xC9),
  (0x42A, 0xCA), (0x42B, 0xCB), (0x42C, 0xCC), (0x42D, 0xCD), (0x42E, 0xCE), (0x42F, 0xCF), (0x430, 0xD0),
  (0x431, 0xD1), (0x432, 0xD2), (0x433, 0xD3), (0x434, 0xD4), (0x435, 0xD5), (0x436, 0xD6), (0x437, 0xD7),
  (0x438, 0xD8), (0x439, 0xD9), (0x43A, 0xDA), (0x43B, 0xDB), (0x43C, 0xDC), (0x43D, 0xDD), (0x43E, 0xDE),
  (0x43F, 0xDF), (0x440, 0xE0), (0x441, 0xE1), (0x442, 0xE2), (0x443, 0xE3), (0x444, 0xE4), (0x445, 0xE5),
  (0x446, 0xE6), (0x447, 0xE7), (0x448, 0xE8), (0x449, 0xE9), (0x44A, 0xEA), (0x44B, 0xEB), (0x44C, 0xEC),
  (0x44D, 0xED), (0x44E, 0xEE), (0x44F, 0xEF), (0x451, 0xF1), (0x452, 0xF2), (0x453, 0xF3), (0x454, 0xF4),
  (0x455, 0xF5), (0x456, 0xF6), (0x457, 0xF7), (0x458, 0xF8), (0x459, 0xF9), (0x45A, 0xFA), (0x45B, 0xFB),
  (0x45C, 0xFC), (0x45E, 0xFE), (0x45F, 0xFF), (0x2116, 0xF0), (0xFFFD, 0x3F)]

/-- single_byte_charsets.hpp 771–783: `ext` of impl_iso_8859_6. -/
def ext_iso_8859_6 : List Nat := [
  0xFFFD, 0xFFFD, 0xFFFD, 0xA4, 0xFFFD, 0xFFFD, 0xFFFD, 0xFFFD, 0xFFFD, 0xFFFD, 0xFFFD, 0x60C, 0xAD, 0xFFFD,
  0xFFFD, 0xFFFD, 0xFFFD, 0xFFFD, 0xFFFD, 0xFFFD, 0xFFFD, 0xFFFD, 0xFFFD, 0xFFFD, 0xFFFD, 0xFFFD, 0x61B, 0xFFFD,
  0xFFFD, 0xFFFD, 0x61F, 0xFFFD, 0x621, 0x622, 0x623, 0x624, 0x625, 0x626, 0x627, 0x628, 0x629, 0x62A, 0x62B,
  0x62C, 0x62D, 0x62E, 0x62F, 0x630, 0x631, 0x632, 0x633, 0x634, 0x635, 0x636, 0x637, 0x638, 0x639, 0x63A, 0xFFFD,
  0xFFFD, 0xFFFD, 0xFFFD, 0xFFFD, 0x640, 0x641, 0x642, 0x643, 0x644, 0x645, 0x646, 0x647, 0x648, 0x649, 0x64A,
  0x64B, 0x64C, 0x64D, 0x64E, 0x64F, 0x650, 0x651, 0x652, 0xFFFD, 0xFFFD, 0xFFFD, 0xFFFD, 0xFFFD, 0xFFFD, 0xFFFD,
  0xFFFD, 0xFFFD, 0xFFFD, 0xFFFD, 0xFFFD, 0xFFFD]

/-- single_byte_charsets.hpp 797–810: `char_map` of impl_iso_8859_6. -/
def map_iso_8859_6 : List (Nat × Nat) := [
  (0xA4, 0xA4), (0xAD, 0xAD), (0x60C, 0xAC), (0x61B, 0xBB), (0x61F, 0xBF), (0x621, 0xC1), (0x622, 0xC2),
  (0x623, 0xC3), (0x624, 0xC4), (0x625, 0xC5), (0x626, 0xC6), (0x627, 0xC7), (0x628, 0xC8), (0x629, 0xC9),
  (0x62A, 0xCA), (0x62B, 0xCB), (0x62C, 0xCC), (0x62D, 0xCD), (0x62E, 0xCE), (0x62F, 0xCF), (0x630, 0xD0),
  (0x631, 0xD1), (0x632, 0xD2), (0x633, 0xD3), (0x634, 0xD4), (0x635, 0xD5), (0x636, 0xD6), (0x637, 0xD7),
  (0x638, 0xD8), (0x639, 0xD9), (0x63A, 0xDA), (0x640, 0xE0), (0x641, 0xE1), (0x642, 0xE2), (0x643, 0xE3),
  (0x644, 0xE4), (0x645, 0xE5), (0x646, 0xE6), (0x647, 0xE7), (0x648, 0xE8), (0x649, 0xE9), (0x64A, 0xEA),
  (0x64B, 0xEB), (0x64C, 0xEC), (0x64D, 0xED), (0x64E, 0xEE), (0x64F, 0xEF), (0x650, 0xF0), (0x651, 0xF1),
  (0x652, 0xF2), (0xFFFD, 0x3F)]

/-- single_byte_charsets.hpp 848–860: `ext` of impl_iso_8859_7. -/
def ext_iso_8859_7 : List Nat := [
  0x2018, 0x2019, 0xA3, 0x20AC, 0x20AF, 0xA6, 0xA7, 0xA8, 0xA9, 0x37A, 0xAB, 0xAC, 0xAD, 0xFFFD, 0x2015, 0xB0,
  0xB1, 0xB2, 0xB3, 0x384, 0x385, 0x386, 0xB7, 0x388, 0x389, 0x38A, 0xBB, 0x38C, 0xBD, 0x38E, 0x38F, 0x390, 0x391,
  0x392, 0x393, 0x394, 0x395, 0x396, 0x397, 0x398, 0x399, 0x39A, 0x39B, 0x39C, 0x39D, 0x39E, 0x39F, 0x3A0, 0x3A1,
  0xFFFD, 0x3A3, 0x3A4, 0x3A5, 0x3A6, 0x3A7, 0x3A8, 0x3A9, 0x3AA, 0x3AB, 0x3AC, 0x3AD, 0x3AE, 0x3AF, 0x3B0, 0x3B1,
  0x3B2, 0x3B3, 0x3B4, 0x3B5, 0x3B6, 0x3B7, 0x3B8, 0x3B9, 0x3BA, 0x3BB, 0x3BC, 0x3BD, 0x3BE, 0x3BF, 0x3C0, 0x3C1,
  0x3C2, 0x3C3, 0x3C4, 0x3C5, 0x3C6, 0x3C7, 0x3C8, 0x3C9, 0x3CA, 0x3CB, 0x3CC, 0x3CD, 0x3CE, 0xFFFD]

/-- single_byte_charsets.hpp 874–898: `char_map` of impl_iso_8859_7. -/
def map_iso_8859_7 : List (Nat × Nat) := [
  (0xA3, 0xA3), (0xA6, 0xA6), (0xA7, 0xA7), (0xA8, 0xA8), (0xA9, 0xA9), (0xAB, 0xAB), (0xAC, 0xAC), (0xAD, 0xAD),
  (0xB0, 0xB0), (0xB1, 0xB1), (0xB2, 0xB2), (0xB3, 0xB3), (0xB7, 0xB7), (0xBB, 0xBB), (0xBD, 0xBD), (0x37A, 0xAA),
  (0x384, 0xB4), (0x385, 0xB5), (0x386, 0xB6), (0x388, 0xB8), (0x389, 0xB9), (0x38A, 0xBA), (0x38C, 0xBC),
  (0x38E, 0xBE), (0x38F, 0xBF), (0x390, 0xC0), (0x391, 0xC1), (0x392, 0xC2), (0x393, 0xC3), (0x394, 0xC4),
  (0x395, 0xC5), (0x396, 0xC6), (0x397, 0xC7), (0x398, 0xC8), (0x399, 0xC9), (0x39A, 0xCA), (0x39B, 0xCB),
  (0x39C, 0xCC), (0x39D, 0xCD), (0x39E, 0xCE), (0x39F, 0xCF), (0x3A0, 0xD0), (0x3A1, 0xD1), (0x3A3, 0xD3),
  (0x3A4, 0xD4), (0x3A5, 0xD5), (0x3A6, 0xD6), (0x3A7, 0xD7), (0x3A8, 0xD8), (0x3A9, 0xD9), (0x3AA, 0xDA),
  (0x3AB, 0xDB), (0x3AC, 0xDC), (0x3AD, 0xDD), (0x3AE, 0xDE), (0x3AF, 0xDF), (0x3B0, 0xE0), (0x3B1, 0xE1),
  (0x3B2, 0xE2), (0x3B3, 0xE3), (0x3B4, 0xE4), (0x3B5, 0xE5), (0x3B6, 0xE6), (0x3B7, 0xE7), (0x3B8, 0xE8),
  (0x3B9, 0xE9), (0x3BA, 0xEA), (0x3BB, 0xEB), (0x3BC, 0xEC), (0x3BD, 0xED), (0x3BE, 0xEE), (0x3BF, 0xEF),
  (0x3C0, 0xF0), (0x3C1, 0xF1), (0x3C2, 0xF2), (0x3C3, 0xF3), (0x3C4, 0xF4), (0x3C5, 0xF5), (0x3C6, 0xF6),
  (0x3C7, 0xF7), (0x3C8, 0xF8), (0x3C9, 0xF9), (0x3CA, 0xFA), (0x3CB, 0xFB), (0x3CC, 0xFC), (0x3CD, 0xFD),
  (0x3CE, 0xFE), (0x2015, 0xAF), (0x2018, 0xA1), (0x2019, 0xA2), (0x20AC, 0xA4), (0x20AF, 0xA5), (0xFFFD, 0x3F)]

/-- single_byte_charsets.hpp 937–949: `ext` of impl_iso_8859_8. -/
def ext_iso_8859_8 : List Nat := [
  0xFFFD, 0xA2, 0xA3, 0xA4, 0xA5, 0xA6, 0xA7, 0xA8, 0xA9, 0xD7, 0xAB, 0xAC, 0xAD, 0xAE, 0xAF, 0xB0, 0xB1, 0xB2,
  0xB3, 0xB4, 0xB5, 0xB6, 0xB7, 0xB8, 0xB9, 0xF7, 0xBB, 0xBC, 0xBD, 0xBE, 0xFFFD, 0xFFFD, 0xFFFD, 0xFFFD, 0xFFFD,
  0xFFFD, 0xFFFD, 0xFFFD, 0xFFFD, 0xFFFD, 0xFFFD, 0xFFFD, 0xFFFD, 0xFFFD, 0xFFFD, 0xFFFD, 0xFFFD, 0xFFFD, 0xFFFD,
  0xFFFD, 0xFFFD, 0xFFFD, 0xFFFD, 0xFFFD, 0xFFFD, 0xFFFD, 0xFFFD, 0xFFFD, 0xFFFD, 0xFFFD, 0xFFFD, 0xFFFD, 0x2017,
  0x5D0, 0x5D1, 0x5D2, 0x5D3, 0x5D4, 0x5D5, 0x5D6, 0x5D7, 0x5D8, 0x5D9, 0x5DA, 0x5DB, 0x5DC, 0x5DD, 0x5DE, 0x5DF,
  0x5E0, 0x5E1, 0x5E2, 0x5E3, 0x5E4, 0x5E5, 0x5E6, 0x5E7, 0x5E8, 0x5E9, 0x5EA, 0xFFFD, 0xFFFD, 0x200E, 0x200F,
  0xFFFD]

/-- single_byte_charsets.hpp 963–978: `char_map` of impl_iso_8859_8. -/
def map_iso_8859_8 : List (Nat × Nat) := [
  (0xA2, 0xA2), (0xA3, 0xA3), (0xA4, 0xA4), (0xA5, 0xA5), (0xA6, 0xA6), (0xA7, 0xA7), (0xA8, 0xA8), (0xA9, 0xA9),
  (0xAB, 0xAB), (0xAC, 0xAC), (0xAD, 0xAD), (0xAE, 0xAE), (0xAF, 0xAF), (0xB0, 0xB0), (0xB1, 0xB1), (0xB2, 0xB2),
  (0xB3, 0xB3), (0xB4, 0xB4), (0xB5, 0xB5), (0xB6, 0xB6), (0xB7, 0xB7), (0xB8, 0xB8), (0xB9, 0xB9), (0xBB, 0xBB),
  (0xBC, 0xBC), (0xBD, 0xBD), (0xBE, 0xBE), (0xD7, 0xAA), (0xF7, 0xBA), (0x5D0, 0xE0), (0x5D1, 0xE1),
  (0x5D2, 0xE2), (0x5D3, 0xE3), (0x5D4, 0xE4), (0x5D5, 0xE5), (0x5D6, 0xE6), (0x5D7, 0xE7), (0x5D8, 0xE8),
  (0x5D9, 0xE9), (0x5DA, 0xEA), (0x5DB, 0xEB), (0x5DC, 0xEC), (0x5DD, 0xED), (0x5DE, 0xEE), (0x5DF, 0xEF),
  (0x5E0, 0xF0), (0x5E1, 0xF1), (0x5E2, 0xF2), (0x5E3, 0xF3), (0x5E4, 0xF4), (0x5E5, 0xF5), (0x5E6, 0xF6),
  (0x5E7, 0xF7), (0x5E8, 0xF8), (0x5E9, 0xF9), (0x5EA, 0xFA), (0x200E, 0xFD), (0x200F, 0xFE), (0x2017, 0xDF),
  (0xFFFD, 0x3F)]

/-- single_byte_charsets.hpp 1074–1086: `ext` of impl_iso_8859_10. -/
def ext_iso_8859_10 : List Nat := [
  0x104, 0x112, 0x122, 0x12A, 0x128, 0x136, 0xA7, 0x13B, 0x110, 0x160, 0x166, 0x17D, 0xAD, 0x16A, 0x14A, 0xB0,
  0x105, 0x113, 0x123, 0x12B, 0x129, 0x137, 0xB7, 0x13C, 0x111, 0x161, 0x167, 0x17E, 0x2015, 0x16B, 0x14B, 0x100,
  0xC1, 0xC2, 0xC3, 0xC4, 0xC5, 0xC6, 0x12E, 0x10C, 0xC9, 0x118, 0xCB, 0x116, 0xCD, 0xCE, 0xCF, 0xD0, 0x145, 0x14C,
  0xD3, 0xD4, 0xD5, 0xD6, 0x168, 0xD8, 0x172, 0xDA, 0xDB, 0xDC, 0xDD, 0xDE, 0xDF, 0x101, 0xE1, 0xE2, 0xE3, 0xE4,
  0xE5, 0xE6, 0x12F, 0x10D, 0xE9, 0x119, 0xEB, 0x117, 0xED, 0xEE, 0xEF, 0xF0, 0x146, 0x14D, 0xF3, 0xF4, 0xF5, 0xF6,
  0x169, 0xF8, 0x173, 0xFA, 0xFB, 0xFC, 0xFD, 0xFE, 0x138]

/-- single_byte_charsets.hpp 1100–1124: `char_map` of impl_iso_8859_10. -/
def map_iso_8859_10 : List (Nat × Nat) := [
  (0xA7, 0xA7), (0xAD, 0xAD), (0xB0, 0xB0), (0xB7, 0xB7), (0xC1, 0xC1), (0xC2, 0xC2), (0xC3, 0xC3), (0xC4, 0xC4),
  (0xC5, 0xC5), (0xC6, 0xC6), (0xC9, 0xC9), (0xCB, 0xCB), (0xCD, 0xCD), (0xCE, 0xCE), (0xCF, 0xCF), (0xD0, 0xD0),
  (0xD3, 0xD3), (0xD4, 0xD4), (0xD5, 0xD5), (0xD6, 0xD6), (0xD8, 0xD8), (0xDA, 0xDA), (0xDB, 0xDB), (0xDC, 0xDC),
  (0xDD, 0xDD), (0xDE, 0xDE), (0xDF, 0xDF), (0xE1, 0xE1), (0xE2, 0xE2), (0xE3, 0xE3), (0xE4, 0xE4), (0xE5, 0xE5),
  (0xE6, 0xE6), (0xE9, 0xE9), (0xEB, 0xEB), (0xED, 0xED), (0xEE, 0xEE), (0xEF, 0xEF), (0xF0, 0xF0), (0xF3, 0xF3),
  (0xF4, 0xF4), (0xF5, 0xF5), (0xF6, 0xF6), (0xF8, 0xF8), (0xFA, 0xFA), (0xFB, 0xFB), (0xFC, 0xFC), (0xFD, 0xFD),
  (0xFE, 0xFE), (0x100, 0xC0), (0x101, 0xE0), (0x104, 0xA1), (0x105, 0xB1), (0x10C, 0xC8), (0x10D, 0xE8),
  (0x110, 0xA9), (0x111, 0xB9), (0x112, 0xA2), (0x113, 0xB2), (0x116, 0xCC), (0x117, 0xEC), (0x118, 0xCA),
  (0x119, 0xEA), (0x122, 0xA3), (0x123, 0xB3), (0x128, 0xA5), (0x129, 0xB5), (0x12A, 0xA4), (0x12B, 0xB4),
  (0x12E, 0xC7), (0x12F, 0xE7), (0x136, 0xA6), (0x137, 0xB6), (0x138, 0xFF), (0x13B, 0xA8), (0x13C, 0xB8),
  (0x145, 0xD1), (0x146, 0xF1), (0x14A, 0xAF), (0x14B, 0xBF), (0x14C, 0xD2), (0x14D, 0xF2), (0x160, 0xAA),
  (0x161, 0xBA), (0x166, 0xAB), (0x167, 0xBB), (0x168, 0xD7), (0x169, 0xF7), (0x16A, 0xAE), (0x16B, 0xBE),
  (0x172, 0xD9), (0x173, 0xF9), (0x17D, 0xAC), (0x17E, 0xBC), (0x2015, 0xBD), (0xFFFD, 0x3F)]

/-- single_byte_charsets.hpp 1162–1174: `ext` of impl_iso_8859_11. -/
def ext_iso_8859_11 : List Nat := [
  0xE01, 0xE02, 0xE03, 0xE04, 0xE05, 0xE06, 0xE07, 0xE08, 0xE09, 0xE0A, 0xE0B, 0xE0C, 0xE0D, 0xE0E, 0xE0F, 0xE10,
  0xE11, 0xE12, 0xE13, 0xE14, 0xE15, 0xE16, 0xE17, 0xE18, 0xE19, 0xE1A, 0xE1B, 0xE1C, 0xE1D, 0xE1E, 0xE1F, 0xE20,
  0xE21, 0xE22, 0xE23, 0xE24, 0xE25, 0xE26, 0xE27, 0xE28, 0xE29, 0xE2A, 0xE2B, 0xE2C, 0xE2D, 0xE2E, 0xE2F, 0xE30,
  0xE31, 0xE32, 0xE33, 0xE34, 0xE35, 0xE36, 0xE37, 0xE38, 0xE39, 0xE3A, 0xFFFD, 0xFFFD, 0xFFFD, 0xFFFD, 0xE3F,
  0xE40, 0xE41, 0xE42, 0xE43, 0xE44, 0xE45, 0xE46, 0xE47, 0xE48, 0xE49, 0xE4A, 0xE4B, 0xE4C, 0xE4D, 0xE4E, 0xE4F,
  0xE50, 0xE51, 0xE52, 0xE53, 0xE54, 0xE55, 0xE56, 0xE57, 0xE58, 0xE59, 0xE5A, 0xE5B, 0xFFFD, 0xFFFD, 0xFFFD, 0xFFFD]

/-- single_byte_charsets.hpp 1188–1210: `char_map` of impl_iso_8859_11. -/
def map_iso_8859_11 : List (Nat × Nat) := [
  (0xE01, 0xA1), (0xE02, 0xA2), (0xE03, 0xA3), (0xE04, 0xA4), (0xE05, 0xA5), (0xE06, 0xA6), (0xE07, 0xA7),
  (0xE08, 0xA8), (0xE09, 0xA9), (0xE0A, 0xAA), (0xE0B, 0xAB), (0xE0C, 0xAC), (0xE0D, 0xAD), (0xE0E, 0xAE),
  (0xE0F, 0xAF), (0xE10, 0xB0), (0xE11, 0xB1), (0xE12, 0xB2), (0xE13, 0xB3), (0xE14, 0xB4), (0xE15, 0xB5),
  (0xE16, 0xB6), (0xE17, 0xB7), (0xE18, 0xB8), (0xE19, 0xB9), (0xE1A, 0xBA), (0xE1B, 0xBB), (0xE1C, 0xBC),
  (0xE1D, 0xBD), (0xE1E, 0xBE), (0xE1F, 0xBF), (0xE20, 0xC0), (0xE21, 0xC1), (0xE22, 0xC2), (0xE23, 0xC3),
  (0xE24, 0xC4), (0xE25, 0xC5), (0xE26, 0xC6), (0xE27, 0xC7), (0xE28, 0xC8), (0xE29, 0xC9), (0xE2A, 0xCA),
  (0xE2B, 0xCB), (0xE2C, 0xCC), (0xE2D, 0xCD), (0xE2E, 0xCE), (0xE2F, 0xCF), (0xE30, 0xD0), (0xE31, 0xD1),
  (0xE32, 0xD2), (0xE33, 0xD3), (0xE34, 0xD4), (0xE35, 0xD5), (0xE36, 0xD6), (0xE37, 0xD7), (0xE38, 0xD8),
  (0xE39, 0xD9), (0xE3A, 0xDA), (0xE3F, 0xDF), (0xE40, 0xE0), (0xE41, 0xE1), (0xE42, 0xE2), (0xE43, 0xE3),
  (0xE44, 0xE4), (0xE45, 0xE5), (0xE46, 0xE6), (0xE47, 0xE7), (0xE48, 0xE8), (0xE49, 0xE9), (0xE4A, 0xEA),
  (0xE4B, 0xEB), (0xE4C, 0xEC), (0xE4D, 0xED), (0xE4E, 0xEE), (0xE4F, 0xEF), (0xE50, 0xF0), (0xE51, 0xF1),
  (0xE52, 0xF2), (0xE53, 0xF3), (0xE54, 0xF4), (0xE55, 0xF5), (0xE56, 0xF6), (0xE57, 0xF7), (0xE58, 0xF8),
  (0xE59, 0xF9), (0xE5A, 0xFA), (0xE5B, 0xFB), (0xFFFD, 0x3F)]

/-- single_byte_charsets.hpp 1248–1260: `ext` of impl_iso_8859_13. -/
def ext_iso_8859_13 : List Nat := [
  0x201D, 0xA2, 0xA3, 0xA4, 0x201E, 0xA6, 0xA7, 0xD8, 0xA9, 0x156, 0xAB, 0xAC, 0xAD, 0xAE, 0xC6, 0xB0, 0xB1, 0xB2,
  0xB3, 0x201C, 0xB5, 0xB6, 0xB7, 0xF8, 0xB9, 0x157, 0xBB, 0xBC, 0xBD, 0xBE, 0xE6, 0x104, 0x12E, 0x100, 0x106,
  0xC4, 0xC5, 0x118, 0x112, 0x10C, 0xC9, 0x179, 0x116, 0x122, 0x136, 0x12A, 0x13B, 0x160, 0x143, 0x145, 0xD3,
  0x14C, 0xD5, 0xD6, 0xD7, 0x172, 0x141, 0x15A, 0x16A, 0xDC, 0x17B, 0x17D, 0xDF, 0x105, 0x12F, 0x101, 0x107, 0xE4,
  0xE5, 0x119, 0x113, 0x10D, 0xE9, 0x17A, 0x117, 0x123, 0x137, 0x12B, 0x13C, 0x161, 0x144, 0x146, 0xF3, 0x14D,
  0xF5, 0xF6, 0xF7, 0x173, 0x142, 0x15B, 0x16B, 0xFC, 0x17C, 0x17E, 0x2019]

/-- single_byte_charsets.hpp 1274–1298: `char_map` of impl_iso_8859_13. -/
def map_iso_8859_13 : List (Nat × Nat) := [
  (0xA2, 0xA2), (0xA3, 0xA3), (0xA4, 0xA4), (0xA6, 0xA6), (0xA7, 0xA7), (0xA9, 0xA9), (0xAB, 0xAB), (0xAC, 0xAC),
  (0xAD, 0xAD), (0xAE, 0xAE), (0xB0, 0xB0), (0xB1, 0xB1), (0xB2, 0xB2), (0xB3, 0xB3), (0xB5, 0xB5), (0xB6, 0xB6),
  (0xB7, 0xB7), (0xB9, 0xB9), (0xBB, 0xBB), (0xBC, 0xBC), (0xBD, 0xBD), (0xBE, 0xBE), (0xC4, 0xC4), (0xC5, 0xC5),
  (0xC6, 0xAF), (0xC9, 0xC9), (0xD3, 0xD3), (0xD5, 0xD5), (0xD6, 0xD6), (0xD7, 0xD7), (0xD8, 0xA8), (0xDC, 0xDC),
  (0xDF, 0xDF), (0xE4, 0xE4), (0xE5, 0xE5), (0xE6, 0xBF), (0xE9, 0xE9), (0xF3, 0xF3), (0xF5, 0xF5), (0xF6, 0xF6),
  (0xF7, 0xF7), (0xF8, 0xB8), (0xFC, 0xFC), (0x100, 0xC2), (0x101, 0xE2), (0x104, 0xC0), (0x105, 0xE0),
  (0x106, 0xC3), (0x107, 0xE3), (0x10C, 0xC8), (0x10D, 0xE8), (0x112, 0xC7), (0x113, 0xE7), (0x116, 0xCB),
  (0x117, 0xEB), (0x118, 0xC6), (0x119, 0xE6), (0x122, 0xCC), (0x123, 0xEC), (0x12A, 0xCE), (0x12B, 0xEE),
  (0x12E, 0xC1), (0x12F, 0xE1), (0x136, 0xCD), (0x137, 0xED), (0x13B, 0xCF), (0x13C, 0xEF), (0x141, 0xD9),
  (0x142, 0xF9), (0x143, 0xD1), (0x144, 0xF1), (0x145, 0xD2), (0x146, 0xF2), (0x14C, 0xD4), (0x14D, 0xF4),
  (0x156, 0xAA), (0x157, 0xBA), (0x15A, 0xDA), (0x15B, 0xFA), (0x160, 0xD0), (0x161, 0xF0), (0x16A, 0xDB),
  (0x16B, 0xFB), (0x172, 0xD8), (0x173, 0xF8), (0x179, 0xCA), (0x17A, 0xEA), (0x17B, 0xDD), (0x17C, 0xFD),
  (0x17D, 0xDE), (0x17E, 0xFE), (0x2019, 0xFF), (0x201C, 0xB4), (0x201D, 0xA1), (0x201E, 0xA5), (0xFFFD, 0x3F)]

/-- single_byte_charsets.hpp 1336–1348: `ext` of impl_iso_8859_14. -/
def ext_iso_8859_14 : List Nat := [
  0x1E02, 0x1E03, 0xA3, 0x10A, 0x10B, 0x1E0A, 0xA7, 0x1E80, 0xA9, 0x1E82, 0x1E0B, 0x1EF2, 0xAD, 0xAE, 0x178,
  0x1E1E, 0x1E1F, 0x120, 0x121, 0x1E40, 0x1E41, 0xB6, 0x1E56, 0x1E81, 0x1E57, 0x1E83, 0x1E60, 0x1EF3, 0x1E84,
  0x1E85, 0x1E61, 0xC0, 0xC1, 0xC2, 0xC3, 0xC4, 0xC5, 0xC6, 0xC7, 0xC8, 0xC9, 0xCA, 0xCB, 0xCC, 0xCD, 0xCE, 0xCF,
  0x174, 0xD1, 0xD2, 0xD3, 0xD4, 0xD5, 0xD6, 0x1E6A, 0xD8, 0xD9, 0xDA, 0xDB, 0xDC, 0xDD, 0x176, 0xDF, 0xE0, 0xE1,
  0xE2, 0xE3, 0xE4, 0xE5, 0xE6, 0xE7, 0xE8, 0xE9, 0xEA, 0xEB, 0xEC, 0xED, 0xEE, 0xEF, 0x175, 0xF1, 0xF2, 0xF3,
  0xF4, 0xF5, 0xF6, 0x1E6B, 0xF8, 0xF9, 0xFA, 0xFB, 0xFC, 0xFD, 0x177, 0xFF]

/-- single_byte_charsets.hpp 1362–1386: `char_map` of impl_iso_8859_14. -/
def map_iso_8859_14 : List (Nat × Nat) := [
  (0xA3, 0xA3), (0xA7, 0xA7), (0xA9, 0xA9), (0xAD, 0xAD), (0xAE, 0xAE), (0xB6, 0xB6), (0xC0, 0xC0), (0xC1, 0xC1),
  (0xC2, 0xC2), (0xC3, 0xC3), (0xC4, 0xC4), (0xC5, 0xC5), (0xC6, 0xC6), (0xC7, 0xC7), (0xC8, 0xC8), (0xC9, 0xC9),
  (0xCA, 0xCA), (0xCB, 0xCB), (0xCC, 0xCC), (0xCD, 0xCD), (0xCE, 0xCE), (0xCF, 0xCF), (0xD1, 0xD1), (0xD2, 0xD2),
  (0xD3, 0xD3), (0xD4, 0xD4), (0xD5, 0xD5), (0xD6, 0xD6), (0xD8, 0xD8), (0xD9, 0xD9), (0xDA, 0xDA), (0xDB, 0xDB),
  (0xDC, 0xDC), (0xDD, 0xDD), (0xDF, 0xDF), (0xE0, 0xE0), (0xE1, 0xE1), (0xE2, 0xE2), (0xE3, 0xE3), (0xE4, 0xE4),
  (0xE5, 0xE5), (0xE6, 0xE6), (0xE7, 0xE7), (0xE8, 0xE8), (0xE9, 0xE9), (0xEA, 0xEA), (0xEB, 0xEB), (0xEC, 0xEC),
  (0xED, 0xED), (0xEE, 0xEE), (0xEF, 0xEF), (0xF1, 0xF1), (0xF2, 0xF2), (0xF3, 0xF3), (0xF4, 0xF4), (0xF5, 0xF5),
  (0xF6, 0xF6), (0xF8, 0xF8), (0xF9, 0xF9), (0xFA, 0xFA), (0xFB, 0xFB), (0xFC, 0xFC), (0xFD, 0xFD), (0xFF, 0xFF),
  (0x10A, 0xA4), (0x10B, 0xA5), (0x120, 0xB2), (0x121, 0xB3), (0x174, 0xD0), (0x175, 0xF0), (0x176, 0xDE),
  (0x177, 0xFE), (0x178, 0xAF), (0x1E02, 0xA1), (0x1E03, 0xA2), (0x1E0A, 0xA6), (0x1E0B, 0xAB), (0x1E1E, 0xB0),
  (0x1E1F, 0xB1), (0x1E40, 0xB4), (0x1E41, 0xB5), (0x1E56, 0xB7), (0x1E57, 0xB9), (0x1E60, 0xBB), (0x1E61, 0xBF),
  (0x1E6A, 0xD7), (0x1E6B, 0xF7), (0x1E80, 0xA8), (0x1E81, 0xB8), (0x1E82, 0xAA), (0x1E83, 0xBA), (0x1E84, 0xBD),
  (0x1E85, 0xBE), (0x1EF2, 0xAC), (0x1EF3, 0xBC), (0xFFFD, 0x3F)]

/-- single_byte_charsets.hpp 1415–1420: `ext` of impl_iso_8859_15. -/
def ext_iso_8859_15 : List Nat := [
  0x20AC, 0xA5, 0x160, 0xA7, 0x161, 0xA9, 0xAA, 0xAB, 0xAC, 0xAD, 0xAE, 0xAF, 0xB0, 0xB1, 0xB2, 0xB3, 0x17D, 0xB5,
  0xB6, 0xB7, 0x17E, 0xB9, 0xBA, 0xBB, 0x152, 0x153, 0x178]

/-- single_byte_charsets.hpp 1497–1509: `ext` of impl_iso_8859_16. -/
def ext_iso_8859_16 : List Nat := [
  0x104, 0x105, 0x141, 0x20AC, 0x201E, 0x160, 0xA7, 0x161, 0xA9, 0x218, 0xAB, 0x179, 0xAD, 0x17A, 0x17B, 0xB0,
  0xB1, 0x10C, 0x142, 0x17D, 0x201D, 0xB6, 0xB7, 0x17E, 0x10D, 0x219, 0xBB, 0x152, 0x153, 0x178, 0x17C, 0xC0, 0xC1,
  0xC2, 0x102, 0xC4, 0x106, 0xC6, 0xC7, 0xC8, 0xC9, 0xCA, 0xCB, 0xCC, 0xCD, 0xCE, 0xCF, 0x110, 0x143, 0xD2, 0xD3,
  0xD4, 0x150, 0xD6, 0x15A, 0x170, 0xD9, 0xDA, 0xDB, 0xDC, 0x118, 0x21A, 0xDF, 0xE0, 0xE1, 0xE2, 0x103, 0xE4,
  0x107, 0xE6, 0xE7, 0xE8, 0xE9, 0xEA, 0xEB, 0xEC, 0xED, 0xEE, 0xEF, 0x111, 0x144, 0xF2, 0xF3, 0xF4, 0x151, 0xF6,
  0x15B, 0x171, 0xF9, 0xFA, 0xFB, 0xFC, 0x119, 0x21B, 0xFF]

/-- single_byte_charsets.hpp 1523–1547: `char_map` of impl_iso_8859_16. -/
def map_iso_8859_16 : List (Nat × Nat) := [
  (0xA7, 0xA7), (0xA9, 0xA9), (0xAB, 0xAB), (0xAD, 0xAD), (0xB0, 0xB0), (0xB1, 0xB1), (0xB6, 0xB6), (0xB7, 0xB7),
  (0xBB, 0xBB), (0xC0, 0xC0), (0xC1, 0xC1), (0xC2, 0xC2), (0xC4, 0xC4), (0xC6, 0xC6), (0xC7, 0xC7), (0xC8, 0xC8),
  (0xC9, 0xC9), (0xCA, 0xCA), (0xCB, 0xCB), (0xCC, 0xCC), (0xCD, 0xCD), (0xCE, 0xCE), (0xCF, 0xCF), (0xD2, 0xD2),
  (0xD3, 0xD3), (0xD4, 0xD4), (0xD6, 0xD6), (0xD9, 0xD9), (0xDA, 0xDA), (0xDB, 0xDB), (0xDC, 0xDC), (0xDF, 0xDF),
  (0xE0, 0xE0), (0xE1, 0xE1), (0xE2, 0xE2), (0xE4, 0xE4), (0xE6, 0xE6), (0xE7, 0xE7), (0xE8, 0xE8), (0xE9, 0xE9),
  (0xEA, 0xEA), (0xEB, 0xEB), (0xEC, 0xEC), (0xED, 0xED), (0xEE, 0xEE), (0xEF, 0xEF), (0xF2, 0xF2), (0xF3, 0xF3),
  (0xF4, 0xF4), (0xF6, 0xF6), (0xF9, 0xF9), (0xFA, 0xFA), (0xFB, 0xFB), (0xFC, 0xFC), (0xFF, 0xFF), (0x102, 0xC3),
  (0x103, 0xE3), (0x104, 0xA1), (0x105, 0xA2), (0x106, 0xC5), (0x107, 0xE5), (0x10C, 0xB2), (0x10D, 0xB9),
  (0x110, 0xD0), (0x111, 0xF0), (0x118, 0xDD), (0x119, 0xFD), (0x141, 0xA3), (0x142, 0xB3), (0x143, 0xD1),
  (0x144, 0xF1), (0x150, 0xD5), (0x151, 0xF5), (0x152, 0xBC), (0x153, 0xBD), (0x15A, 0xD7), (0x15B, 0xF7),
  (0x160, 0xA6), (0x161, 0xA8), (0x170, 0xD8), (0x171, 0xF8), (0x178, 0xBE), (0x179, 0xAC), (0x17A, 0xAE),
  (0x17B, 0xAF), (0x17C, 0xBF), (0x17D, 0xB4), (0x17E, 0xB8), (0x218, 0xAA), (0x219, 0xBA), (0x21A, 0xDE),
  (0x21B, 0xFE), (0x201D, 0xB5), (0x201E, 0xA5), (0x20AC, 0xA4), (0xFFFD, 0x3F)]

/-- single_byte_charsets.hpp 1578–1594: `ext` of impl_windows_1250. -/
def ext_windows_1250 : List Nat := [
  0x20AC, 0x81, 0x201A, 0x83, 0x201E, 0x2026, 0x2020, 0x2021, 0x88, 0x2030, 0x160, 0x2039, 0x15A, 0x164, 0x17D,
  0x179, 0x90, 0x2018, 0x2019, 0x201C, 0x201D, 0x2022, 0x2013, 0x2014, 0x98, 0x2122, 0x161, 0x203A, 0x15B, 0x165,
  0x17E, 0x17A, 0xA0, 0x2C7, 0x2D8, 0x141, 0xA4, 0x104, 0xA6, 0xA7, 0xA8, 0xA9, 0x15E, 0xAB, 0xAC, 0xAD, 0xAE,
  0x17B, 0xB0, 0xB1, 0x2DB, 0x142, 0xB4, 0xB5, 0xB6, 0xB7, 0xB8, 0x105, 0x15F, 0xBB, 0x13D, 0x2DD, 0x13E, 0x17C,
  0x154, 0xC1, 0xC2, 0x102, 0xC4, 0x139, 0x106, 0xC7, 0x10C, 0xC9, 0x118, 0xCB, 0x11A, 0xCD, 0xCE, 0x10E, 0x110,
  0x143, 0x147, 0xD3, 0xD4, 0x150, 0xD6, 0xD7, 0x158, 0x16E, 0xDA, 0x170, 0xDC, 0xDD, 0x162, 0xDF, 0x155, 0xE1,
  0xE2, 0x103, 0xE4, 0x13A, 0x107, 0xE7, 0x10D, 0xE9, 0x119, 0xEB, 0x11B, 0xED, 0xEE, 0x10F, 0x111, 0x144, 0x148,
  0xF3, 0xF4, 0x151, 0xF6, 0xF7, 0x159, 0x16F, 0xFA, 0x171, 0xFC, 0xFD, 0x163, 0x2D9]

/-- single_byte_charsets.hpp 1612–1645: `char_map` of impl_windows_1250. -/
def map_windows_1250 : List (Nat × Nat) := [
  (0x81, 0x81), (0x83, 0x83), (0x88, 0x88), (0x90, 0x90), (0x98, 0x98), (0xA0, 0xA0), (0xA4, 0xA4), (0xA6, 0xA6),
  (0xA7, 0xA7), (0xA8, 0xA8), (0xA9, 0xA9), (0xAB, 0xAB), (0xAC, 0xAC), (0xAD, 0xAD), (0xAE, 0xAE), (0xB0, 0xB0),
  (0xB1, 0xB1), (0xB4, 0xB4), (0xB5, 0xB5), (0xB6, 0xB6), (0xB7, 0xB7), (0xB8, 0xB8), (0xBB, 0xBB), (0xC1, 0xC1),
  (0xC2, 0xC2), (0xC4, 0xC4), (0xC7, 0xC7), (0xC9, 0xC9), (0xCB, 0xCB), (0xCD, 0xCD), (0xCE, 0xCE), (0xD3, 0xD3),
  (0xD4, 0xD4), (0xD6, 0xD6), (0xD7, 0xD7), (0xDA, 0xDA), (0xDC, 0xDC), (0xDD, 0xDD), (0xDF, 0xDF), (0xE1, 0xE1),
  (0xE2, 0xE2), (0xE4, 0xE4), (0xE7, 0xE7), (0xE9, 0xE9), (0xEB, 0xEB), (0xED, 0xED), (0xEE, 0xEE), (0xF3, 0xF3),
  (0xF4, 0xF4), (0xF6, 0xF6), (0xF7, 0xF7), (0xFA, 0xFA), (0xFC, 0xFC), (0xFD, 0xFD), (0x102, 0xC3), (0x103, 0xE3),
  (0x104, 0xA5), (0x105, 0xB9), (0x106, 0xC6), (0x107, 0xE6), (0x10C, 0xC8), (0x10D, 0xE8), (0x10E, 0xCF),
  (0x10F, 0xEF), (0x110, 0xD0), (0x111, 0xF0), (0x118, 0xCA), (0x119, 0xEA), (0x11A, 0xCC), (0x11B, 0xEC),
  (0x139, 0xC5), (0x13A, 0xE5), (0x13D, 0xBC), (0x13E, 0xBE), (0x141, 0xA3), (0x142, 0xB3), (0x143, 0xD1),
  (0x144, 0xF1), (0x147, 0xD2), (0x148, 0xF2), (0x150, 0xD5), (0x151, 0xF5), (0x154, 0xC0), (0x155, 0xE0),
  (0x158, 0xD8), (0x159, 0xF8), (0x15A, 0x8C), (0x15B, 0x9C), (0x15E, 0xAA), (0x15F, 0xBA), (0x160, 0x8A),
  (0x161, 0x9A), (0x162, 0xDE), (0x163, 0xFE), (0x164, 0x8D), (0x165, 0x9D), (0x16E, 0xD9), (0x16F, 0xF9),
  (0x170, 0xDB), (0x171, 0xFB), (0x179, 0x8F), (0x17A, 0x9F), (0x17B, 0xAF), (0x17C, 0xBF), (0x17D, 0x8E),
  (0x17E, 0x9E), (0x2C7, 0xA1), (0x2D8, 0xA2), (0x2D9, 0xFF), (0x2DB, 0xB2), (0x2DD, 0xBD), (0x2013, 0x96),
  (0x2014, 0x97), (0x2018, 0x91), (0x2019, 0x92), (0x201A, 0x82), (0x201C, 0x93), (0x201D, 0x94), (0x201E, 0x84),
  (0x2020, 0x86), (0x2021, 0x87), (0x2022, 0x95), (0x2026, 0x85), (0x2030, 0x89), (0x2039, 0x8B), (0x203A, 0x9B),
  (0x20AC, 0x80), (0x2122, 0x99), (0xFFFD, 0x3F)]

/-- single_byte_charsets.hpp 1677–1693: `ext` of impl_windows_1251. -/
def ext_windows_1251 : List Nat := [
  0x402, 0x403, 0x201A, 0x453, 0x201E, 0x2026, 0x2020, 0x2021, 0x20AC, 0x2030, 0x409, 0x2039, 0x40A, 0x40C, 0x40B,
  0x40F, 0x452, 0x2018, 0x2019, 0x201C, 0x201D, 0x2022, 0x2013, 0x2014, 0x98, 0x2122, 0x459, 0x203A, 0x45A, 0x45C,
  0x45B, 0x45F, 0xA0, 0x40E, 0x45E, 0x408, 0xA4, 0x490, 0xA6, 0xA7, 0x401, 0xA9, 0x404, 0xAB, 0xAC, 0xAD, 0xAE,
  0x407, 0xB0, 0xB1, 0x406, 0x456, 0x491, 0xB5, 0xB6, 0xB7, 0x451, 0x2116, 0x454, 0xBB, 0x458, 0x405, 0x455, 0x457,
  0x410, 0x411, 0x412, 0x413, 0x414, 0x415, 0x416, 0x417, 0x418, 0x419, 0x41A, 0x41B, 0x41C, 0x41D, 0x41E, 0x41F,
  0x420, 0x421, 0x422, 0x423, 0x424, 0x425, 0x426, 0x427, 0x428, 0x429, 0x42A, 0x42B, 0x42C, 0x42D, 0x42E, 0x42F,
  0x430, 0x431, 0x432, 0x433, 0x434, 0x435, 0x436, 0x437, 0x438, 0x439, 0x43A, 0x43B, 0x43C, 0x43D, 0x43E, 0x43F,
  0x440, 0x441, 0x442, 0x443, 0x444, 0x445, 0x446, 0x447, 0x448, 0x449, 0x44A, 0x44B, 0x44C, 0x44D, 0x44E, 0x44F]

/-- single_byte_charsets.hpp 1712–1745: `char_map` of impl_windows_1251. -/
def map_windows_1251 : List (Nat × Nat) := [
  (0x98, 0x98), (0xA0, 0xA0), (0xA4, 0xA4), (0xA6, 0xA6), (0xA7, 0xA7), (0xA9, 0xA9), (0xAB, 0xAB), (0xAC, 0xAC),
  (0xAD, 0xAD), (0xAE, 0xAE), (0xB0, 0xB0), (0xB1, 0xB1), (0xB5, 0xB5), (0xB6, 0xB6), (0xB7, 0xB7), (0xBB, 0xBB),
  (0x401, 0xA8), (0x402, 0x80), (0x403, 0x81), (0x404, 0xAA), (0x405, 0xBD), (0x406, 0xB2), (0x407, 0xAF),
  (0x408, 0xA3), (0x409, 0x8A), (0x40A, 0x8C), (0x40B, 0x8E), (0x40C, 0x8D), (0x40E, 0xA1), (0x40F, 0x8F),
  (0x410, 0xC0), (0x411, 0xC1), (0x412, 0xC2), (0x413, 0xC3), (0x414, 0xC4), (0x415, 0xC5), (0x416, 0xC6),
  (0x417, 0xC7), (0x418, 0xC8), (0x419, 0xC9), (0x41A, 0xCA), (0x41B, 0xCB), (0x41C, 0xCC), (0x41D, 0xCD),
  (0x41E, 0xCE), (0x41F, 0xCF), (0x420, 0xD0), (0x421, 0xD1), (0x422, 0xD2), (0x423, 0xD3), (0x424, 0xD4),
  (0x425, 0xD5), (0x426, 0xD6), (0x427, 0xD7), (0x428, 0xD8), (0x429, 0xD9), (0x42A, 0xDA), (0x42B, 0xDB),
  (0x42C, 0xDC), (0x42D, 0xDD), (0x42E, 0xDE), (0x42F, 0xDF), (0x430, 0xE0), (0x431, 0xE1), (0x432, 0xE2),
  (0x433, 0xE3), (0x434, 0xE4), (0x435, 0xE5), (0x436, 0xE6), (0x437, 0xE7), (0x438, 0xE8), (0x439, 0xE9),
  (0x43A, 0xEA), (0x43B, 0xEB), (0x43C, 0xEC), (0x43D, 0xED), (0x43E, 0xEE), (0x43F, 0xEF), (0x440, 0xF0),
  (0x441, 0xF1), (0x442, 0xF2), (0x443, 0xF3), (0x444, 0xF4), (0x445, 0xF5), (0x446, 0xF6), (0x447, 0xF7),
  (0x448, 0xF8), (0x449, 0xF9), (0x44A, 0xFA), (0x44B, 0xFB), (0x44C, 0xFC), (0x44D, 0xFD), (0x44E, 0xFE),
  (0x44F, 0xFF), (0x451, 0xB8), (0x452, 0x90), (0x453, 0x83), (0x454, 0xBA), (0x455, 0xBE), (0x456, 0xB3),
  (0x457, 0xBF), (0x458, 0xBC), (0x459, 0x9A), (0x45A, 0x9C), (0x45B, 0x9E), (0x45C, 0x9D), (0x45E, 0xA2),
  (0x45F, 0x9F), (0x490, 0xA5), (0x491, 0xB4), (0x2013, 0x96), (0x2014, 0x97), (0x2018, 0x91), (0x2019, 0x92),
  (0x201A, 0x82), (0x201C, 0x93), (0x201D, 0x94), (0x201E, 0x84), (0x2020, 0x86), (0x2021, 0x87), (0x2022, 0x95),
  (0x2026, 0x85), (0x2030, 0x89), (0x2039, 0x8B), (0x203A, 0x9B), (0x20AC, 0x88), (0x2116, 0xB9), (0x2122, 0x99),
  (0xFFFD, 0x3F)]

/-- single_byte_charsets.hpp 1777–1782: `ext` of impl_windows_1252. -/
def ext_windows_1252 : List Nat := [
  0x20AC, 0x81, 0x201A, 0x192, 0x201E, 0x2026, 0x2020, 0x2021, 0x2C6, 0x2030, 0x160, 0x2039, 0x152, 0x8D, 0x17D,
  0x8F, 0x90, 0x2018, 0x2019, 0x201C, 0x201D, 0x2022, 0x2013, 0x2014, 0x2DC, 0x2122, 0x161, 0x203A, 0x153, 0x9D,
  0x17E, 0x178]

/-- single_byte_charsets.hpp 1863–1879: `ext` of impl_windows_1253. -/
def ext_windows_1253 : List Nat := [
  0x20AC, 0x81, 0x201A, 0x192, 0x201E, 0x2026, 0x2020, 0x2021, 0x88, 0x2030, 0x8A, 0x2039, 0x8C, 0x8D, 0x8E, 0x8F,
  0x90, 0x2018, 0x2019, 0x201C, 0x201D, 0x2022, 0x2013, 0x2014, 0x98, 0x2122, 0x9A, 0x203A, 0x9C, 0x9D, 0x9E, 0x9F,
  0xA0, 0x385, 0x386, 0xA3, 0xA4, 0xA5, 0xA6, 0xA7, 0xA8, 0xA9, 0xFFFD, 0xAB, 0xAC, 0xAD, 0xAE, 0x2015, 0xB0, 0xB1,
  0xB2, 0xB3, 0x384, 0xB5, 0xB6, 0xB7, 0x388, 0x389, 0x38A, 0xBB, 0x38C, 0xBD, 0x38E, 0x38F, 0x390, 0x391, 0x392,
  0x393, 0x394, 0x395, 0x396, 0x397, 0x398, 0x399, 0x39A, 0x39B, 0x39C, 0x39D, 0x39E, 0x39F, 0x3A0, 0x3A1, 0xFFFD,
  0x3A3, 0x3A4, 0x3A5, 0x3A6, 0x3A7, 0x3A8, 0x3A9, 0x3AA, 0x3AB, 0x3AC, 0x3AD, 0x3AE, 0x3AF, 0x3B0, 0x3B1, 0x3B2,
  0x3B3, 0x3B4, 0x3B5, 0x3B6, 0x3B7, 0x3B8, 0x3B9, 0x3BA, 0x3BB, 0x3BC, 0x3BD, 0x3BE, 0x3BF, 0x3C0, 0x3C1, 0x3C2,
  0x3C3, 0x3C4, 0x3C5, 0x3C6, 0x3C7, 0x3C8, 0x3C9, 0x3CA, 0x3CB, 0x3CC, 0x3CD, 0x3CE, 0xFFFD]

/-- single_byte_charsets.hpp 1898–1930: `char_map` of impl_windows_1253. -/
def map_windows_1253 : List (Nat × Nat) := [
  (0x81, 0x81), (0x88, 0x88), (0x8A, 0x8A), (0x8C, 0x8C), (0x8D, 0x8D), (0x8E, 0x8E), (0x8F, 0x8F), (0x90, 0x90),
  (0x98, 0x98), (0x9A, 0x9A), (0x9C, 0x9C), (0x9D, 0x9D), (0x9E, 0x9E), (0x9F, 0x9F), (0xA0, 0xA0), (0xA3, 0xA3),
  (0xA4, 0xA4), (0xA5, 0xA5), (0xA6, 0xA6), (0xA7, 0xA7), (0xA8, 0xA8), (0xA9, 0xA9), (0xAB, 0xAB), (0xAC, 0xAC),
  (0xAD, 0xAD), (0xAE, 0xAE), (0xB0, 0xB0), (0xB1, 0xB1), (0xB2, 0xB2), (0xB3, 0xB3), (0xB5, 0xB5), (0xB6, 0xB6),
  (0xB7, 0xB7), (0xBB, 0xBB), (0xBD, 0xBD), (0x192, 0x83), (0x384, 0xB4), (0x385, 0xA1), (0x386, 0xA2),
  (0x388, 0xB8), (0x389, 0xB9), (0x38A, 0xBA), (0x38C, 0xBC), (0x38E, 0xBE), (0x38F, 0xBF), (0x390, 0xC0),
  (0x391, 0xC1), (0x392, 0xC2), (0x393, 0xC3), (0x394, 0xC4), (0x395, 0xC5), (0x396, 0xC6), (0x397, 0xC7),
  (0x398, 0xC8), (0x399, 0xC9), (0x39A, 0xCA), (0x39B, 0xCB), (0x39C, 0xCC), (0x39D, 0xCD), (0x39E, 0xCE),
  (0x39F, 0xCF), (0x3A0, 0xD0), (0x3A1, 0xD1), (0x3A3, 0xD3), (0x3A4, 0xD4), (0x3A5, 0xD5), (0x3A6, 0xD6),
  (0x3A7, 0xD7), (0x3A8, 0xD8), (0x3A9, 0xD9), (0x3AA, 0xDA), (0x3AB, 0xDB), (0x3AC, 0xDC), (0x3AD, 0xDD),
  (0x3AE, 0xDE), (0x3AF, 0xDF), (0x3B0, 0xE0), (0x3B1, 0xE1), (0x3B2, 0xE2), (0x3B3, 0xE3), (0x3B4, 0xE4),
  (0x3B5, 0xE5), (0x3B6, 0xE6), (0x3B7, 0xE7), (0x3B8, 0xE8), (0x3B9, 0xE9), (0x3BA, 0xEA), (0x3BB, 0xEB),
  (0x3BC, 0xEC), (0x3BD, 0xED), (0x3BE, 0xEE), (0x3BF, 0xEF), (0x3C0, 0xF0), (0x3C1, 0xF1), (0x3C2, 0xF2),
  (0x3C3, 0xF3), (0x3C4, 0xF4), (0x3C5, 0xF5), (0x3C6, 0xF6), (0x3C7, 0xF7), (0x3C8, 0xF8), (0x3C9, 0xF9),
  (0x3CA, 0xFA), (0x3CB, 0xFB), (0x3CC, 0xFC), (0x3CD, 0xFD), (0x3CE, 0xFE), (0x2013, 0x96), (0x2014, 0x97),
  (0x2015, 0xAF), (0x2018, 0x91), (0x2019, 0x92), (0x201A, 0x82), (0x201C, 0x93), (0x201D, 0x94), (0x201E, 0x84),
  (0x2020, 0x86), (0x2021, 0x87), (0x2022, 0x95), (0x2026, 0x85), (0x2030, 0x89), (0x2039, 0x8B), (0x203A, 0x9B),
  (0x20AC, 0x80), (0x2122, 0x99), (0xFFFD, 0x3F)]

/-- single_byte_charsets.hpp 1963–1967: `ext` of impl_windows_1254. -/
def ext_windows_1254 : List Nat := [
  0x20AC, 0x81, 0x201A, 0x192, 0x201E, 0x2026, 0x2020, 0x2021, 0x2C6, 0x2030, 0x160, 0x2039, 0x152, 0x8D, 0x8E,
  0x8F, 0x90, 0x2018, 0x2019, 0x201C, 0x201D, 0x2022, 0x2013, 0x2014, 0x2DC, 0x2122, 0x161, 0x203A, 0x153, 0x9D,
  0x9E, 0x178]

/-- single_byte_charsets.hpp 2067–2084: `ext` of impl_windows_1255. -/
def ext_windows_1255 : List Nat := [
  0x20AC, 0x81, 0x201A, 0x192, 0x201E, 0x2026, 0x2020, 0x2021, 0x2C6, 0x2030, 0x8A, 0x2039, 0x8C, 0x8D, 0x8E, 0x8F,
  0x90, 0x2018, 0x2019, 0x201C, 0x201D, 0x2022, 0x2013, 0x2014, 0x2DC, 0x2122, 0x9A, 0x203A, 0x9C, 0x9D, 0x9E,
  0x9F, 0xA0, 0xA1, 0xA2, 0xA3, 0x20AA, 0xA5, 0xA6, 0xA7, 0xA8, 0xA9, 0xD7, 0xAB, 0xAC, 0xAD, 0xAE, 0xAF, 0xB0,
  0xB1, 0xB2, 0xB3, 0xB4, 0xB5, 0xB6, 0xB7, 0xB8, 0xB9, 0xF7, 0xBB, 0xBC, 0xBD, 0xBE, 0xBF, 0x5B0, 0x5B1, 0x5B2,
  0x5B3, 0x5B4, 0x5B5, 0x5B6, 0x5B7, 0x5B8, 0x5B9, 0x5BA, 0x5BB, 0x5BC, 0x5BD, 0x5BE, 0x5BF, 0x5C0, 0x5C1, 0x5C2,
  0x5C3, 0x5F0, 0x5F1, 0x5F2, 0x5F3, 0x5F4, 0xFFFD, 0xFFFD, 0xFFFD, 0xFFFD, 0xFFFD, 0xFFFD, 0xFFFD, 0x5D0, 0x5D1,
  0x5D2, 0x5D3, 0x5D4, 0x5D5, 0x5D6, 0x5D7, 0x5D8, 0x5D9, 0x5DA, 0x5DB, 0x5DC, 0x5DD, 0x5DE, 0x5DF, 0x5E0, 0x5E1,
  0x5E2, 0x5E3, 0x5E4, 0x5E5, 0x5E6, 0x5E7, 0x5E8, 0x5E9, 0x5EA, 0xFFFD, 0xFFFD, 0x200E, 0x200F, 0xFFFD]

/-- single_byte_charsets.hpp 2103–2133: `char_map` of impl_windows_1255. -/
def map_windows_1255 : List (Nat × Nat) := [
  (0x81, 0x81), (0x8A, 0x8A), (0x8C, 0x8C), (0x8D, 0x8D), (0x8E, 0x8E), (0x8F, 0x8F), (0x90, 0x90), (0x9A, 0x9A),
  (0x9C, 0x9C), (0x9D, 0x9D), (0x9E, 0x9E), (0x9F, 0x9F), (0xA0, 0xA0), (0xA1, 0xA1), (0xA2, 0xA2), (0xA3, 0xA3),
  (0xA5, 0xA5), (0xA6, 0xA6), (0xA7, 0xA7), (0xA8, 0xA8), (0xA9, 0xA9), (0xAB, 0xAB), (0xAC, 0xAC), (0xAD, 0xAD),
  (0xAE, 0xAE), (0xAF, 0xAF), (0xB0, 0xB0), (0xB1, 0xB1), (0xB2, 0xB2), (0xB3, 0xB3), (0xB4, 0xB4), (0xB5, 0xB5),
  (0xB6, 0xB6), (0xB7, 0xB7), (0xB8, 0xB8), (0xB9, 0xB9), (0xBB, 0xBB), (0xBC, 0xBC), (0xBD, 0xBD), (0xBE, 0xBE),
  (0xBF, 0xBF), (0xD7, 0xAA), (0xF7, 0xBA), (0x192, 0x83), (0x2C6, 0x88), (0x2DC, 0x98), (0x5B0, 0xC0),
  (0x5B1, 0xC1), (0x5B2, 0xC2), (0x5B3, 0xC3), (0x5B4, 0xC4), (0x5B5, 0xC5), (0x5B6, 0xC6), (0x5B7, 0xC7),
  (0x5B8, 0xC8), (0x5B9, 0xC9), (0x5BA, 0xCA), (0x5BB, 0xCB), (0x5BC, 0xCC), (0x5BD, 0xCD), (0x5BE, 0xCE),
  (0x5BF, 0xCF), (0x5C0, 0xD0), (0x5C1, 0xD1), (0x5C2, 0xD2), (0x5C3, 0xD3), (0x5D0, 0xE0), (0x5D1, 0xE1),
  (0x5D2, 0xE2), (0x5D3, 0xE3), (0x5D4, 0xE4), (0x5D5, 0xE5), (0x5D6, 0xE6), (0x5D7, 0xE7), (0x5D8, 0xE8),
  (0x5D9, 0xE9), (0x5DA, 0xEA), (0x5DB, 0xEB), (0x5DC, 0xEC), (0x5DD, 0xED), (0x5DE, 0xEE), (0x5DF, 0xEF),
  (0x5E0, 0xF0), (0x5E1, 0xF1), (0x5E2, 0xF2), (0x5E3, 0xF3), (0x5E4, 0xF4), (0x5E5, 0xF5), (0x5E6, 0xF6),
  (0x5E7, 0xF7), (0x5E8, 0xF8), (0x5E9, 0xF9), (0x5EA, 0xFA), (0x5F0, 0xD4), (0x5F1, 0xD5), (0x5F2, 0xD6),
  (0x5F3, 0xD7), (0x5F4, 0xD8), (0x200E, 0xFD), (0x200F, 0xFE), (0x2013, 0x96), (0x2014, 0x97), (0x2018, 0x91),
  (0x2019, 0x92), (0x201A, 0x82), (0x201C, 0x93), (0x201D, 0x94), (0x201E, 0x84), (0x2020, 0x86), (0x2021, 0x87),
  (0x2022, 0x95), (0x2026, 0x85), (0x2030, 0x89), (0x2039, 0x8B), (0x203A, 0x9B), (0x20AA, 0xA4), (0x20AC, 0x80),
  (0x2122, 0x99), (0xFFFD, 0x3F)]

/-- single_byte_charsets.hpp 2165–2181: `ext` of impl_windows_1256. -/
def ext_windows_1256 : List Nat := [
  0x20AC, 0x67E, 0x201A, 0x192, 0x201E, 0x2026, 0x2020, 0x2021, 0x2C6, 0x2030, 0x679, 0x2039, 0x152, 0x686, 0x698,
  0x688, 0x6AF, 0x2018, 0x2019, 0x201C, 0x201D, 0x2022, 0x2013, 0x2014, 0x6A9, 0x2122, 0x691, 0x203A, 0x153,
  0x200C, 0x200D, 0x6BA, 0xA0, 0x60C, 0xA2, 0xA3, 0xA4, 0xA5, 0xA6, 0xA7, 0xA8, 0xA9, 0x6BE, 0xAB, 0xAC, 0xAD,
  0xAE, 0xAF, 0xB0, 0xB1, 0xB2, 0xB3, 0xB4, 0xB5, 0xB6, 0xB7, 0xB8, 0xB9, 0x61B, 0xBB, 0xBC, 0xBD, 0xBE, 0x61F,
  0x6C1, 0x621, 0x622, 0x623, 0x624, 0x625, 0x626, 0x627, 0x628, 0x629, 0x62A, 0x62B, 0x62C, 0x62D, 0x62E, 0x62F,
  0x630, 0x631, 0x632, 0x633, 0x634, 0x635, 0x636, 0xD7, 0x637, 0x638, 0x639, 0x63A, 0x640, 0x641, 0x642, 0x643,
  0xE0, 0x644, 0xE2, 0x645, 0x646, 0x647, 0x648, 0xE7, 0xE8, 0xE9, 0xEA, 0xEB, 0x649, 0x64A, 0xEE, 0xEF, 0x64B,
  0x64C, 0x64D, 0x64E, 0xF4, 0x64F, 0x650, 0xF7, 0x651, 0xF9, 0x652, 0xFB, 0xFC, 0x200E, 0x200F, 0x6D2]

/-- single_byte_charsets.hpp 2200–2233: `char_map` of impl_windows_1256. -/
def map_windows_1256 : List (Nat × Nat) := [
  (0xA0, 0xA0), (0xA2, 0xA2), (0xA3, 0xA3), (0xA4, 0xA4), (0xA5, 0xA5), (0xA6, 0xA6), (0xA7, 0xA7), (0xA8, 0xA8),
  (0xA9, 0xA9), (0xAB, 0xAB), (0xAC, 0xAC), (0xAD, 0xAD), (0xAE, 0xAE), (0xAF, 0xAF), (0xB0, 0xB0), (0xB1, 0xB1),
  (0xB2, 0xB2), (0xB3, 0xB3), (0xB4, 0xB4), (0xB5, 0xB5), (0xB6, 0xB6), (0xB7, 0xB7), (0xB8, 0xB8), (0xB9, 0xB9),
  (0xBB, 0xBB), (0xBC, 0xBC), (0xBD, 0xBD), (0xBE, 0xBE), (0xD7, 0xD7), (0xE0, 0xE0), (0xE2, 0xE2), (0xE7, 0xE7),
  (0xE8, 0xE8), (0xE9, 0xE9), (0xEA, 0xEA), (0xEB, 0xEB), (0xEE, 0xEE), (0xEF, 0xEF), (0xF4, 0xF4), (0xF7, 0xF7),
  (0xF9, 0xF9), (0xFB, 0xFB), (0xFC, 0xFC), (0x152, 0x8C), (0x153, 0x9C), (0x192, 0x83), (0x2C6, 0x88),
  (0x60C, 0xA1), (0x61B, 0xBA), (0x61F, 0xBF), (0x621, 0xC1), (0x622, 0xC2), (0x623, 0xC3), (0x624, 0xC4),
  (0x625, 0xC5), (0x626, 0xC6), (0x627, 0xC7), (0x628, 0xC8), (0x629, 0xC9), (0x62A, 0xCA), (0x62B, 0xCB),
  (0x62C, 0xCC), (0x62D, 0xCD), (0x62E, 0xCE), (0x62F, 0xCF), (0x630, 0xD0), (0x631, 0xD1), (0x632, 0xD2),
  (0x633, 0xD3), (0x634, 0xD4), (0x635, 0xD5), (0x636, 0xD6), (0x637, 0xD8), (0x638, 0xD9), (0x639, 0xDA),
  (0x63A, 0xDB), (0x640, 0xDC), (0x641, 0xDD), (0x642, 0xDE), (0x643, 0xDF), (0x644, 0xE1), (0x645, 0xE3),
  (0x646, 0xE4), (0x647, 0xE5), (0x648, 0xE6), (0x649, 0xEC), (0x64A, 0xED), (0x64B, 0xF0), (0x64C, 0xF1),
  (0x64D, 0xF2), (0x64E, 0xF3), (0x64F, 0xF5), (0x650, 0xF6), (0x651, 0xF8), (0x652, 0xFA), (0x679, 0x8A),
  (0x67E, 0x81), (0x686, 0x8D), (0x688, 0x8F), (0x691, 0x9A), (0x698, 0x8E), (0x6A9, 0x98), (0x6AF, 0x90),
  (0x6BA, 0x9F), (0x6BE, 0xAA), (0x6C1, 0xC0), (0x6D2, 0xFF), (0x200C, 0x9D), (0x200D, 0x9E), (0x200E, 0xFD),
  (0x200F, 0xFE), (0x2013, 0x96), (0x2014, 0x97), (0x2018, 0x91), (0x2019, 0x92), (0x201A, 0x82), (0x201C, 0x93),
  (0x201D, 0x94), (0x201E, 0x84), (0x2020, 0x86), (0x2021, 0x87), (0x2022, 0x95), (0x2026, 0x85), (0x2030, 0x89),
  (0x2039, 0x8B), (0x203A, 0x9B), (0x20AC, 0x80), (0x2122, 0x99), (0xFFFD, 0x3F)]

/-- single_byte_charsets.hpp 2265–2281: `ext` of impl_windows_1257. -/
def ext_windows_1257 : List Nat := [
  0x20AC, 0x81, 0x201A, 0x83, 0x201E, 0x2026, 0x2020, 0x2021, 0x88, 0x2030, 0x8A, 0x2039, 0x8C, 0xA8, 0x2C7, 0xB8,
  0x90, 0x2018, 0x2019, 0x201C, 0x201D, 0x2022, 0x2013, 0x2014, 0x98, 0x2122, 0x9A, 0x203A, 0x9C, 0xAF, 0x2DB,
  0x9F, 0xA0, 0xFFFD, 0xA2, 0xA3, 0xA4, 0xFFFD, 0xA6, 0xA7, 0xD8, 0xA9, 0x156, 0xAB, 0xAC, 0xAD, 0xAE, 0xC6, 0xB0,
  0xB1, 0xB2, 0xB3, 0xB4, 0xB5, 0xB6, 0xB7, 0xF8, 0xB9, 0x157, 0xBB, 0xBC, 0xBD, 0xBE, 0xE6, 0x104, 0x12E, 0x100,
  0x106, 0xC4, 0xC5, 0x118, 0x112, 0x10C, 0xC9, 0x179, 0x116, 0x122, 0x136, 0x12A, 0x13B, 0x160, 0x143, 0x145,
  0xD3, 0x14C, 0xD5, 0xD6, 0xD7, 0x172, 0x141, 0x15A, 0x16A, 0xDC, 0x17B, 0x17D, 0xDF, 0x105, 0x12F, 0x101, 0x107,
  0xE4, 0xE5, 0x119, 0x113, 0x10D, 0xE9, 0x17A, 0x117, 0x123, 0x137, 0x12B, 0x13C, 0x161, 0x144, 0x146, 0xF3,
  0x14D, 0xF5, 0xF6, 0xF7, 0x173, 0x142, 0x15B, 0x16B, 0xFC, 0x17C, 0x17E, 0x2D9]

/-- single_byte_charsets.hpp 2300–2332: `char_map` of impl_windows_1257. -/
def map_windows_1257 : List (Nat × Nat) := [
  (0x81, 0x81), (0x83, 0x83), (0x88, 0x88), (0x8A, 0x8A), (0x8C, 0x8C), (0x90, 0x90), (0x98, 0x98), (0x9A, 0x9A),
  (0x9C, 0x9C), (0x9F, 0x9F), (0xA0, 0xA0), (0xA2, 0xA2), (0xA3, 0xA3), (0xA4, 0xA4), (0xA6, 0xA6), (0xA7, 0xA7),
  (0xA8, 0x8D), (0xA9, 0xA9), (0xAB, 0xAB), (0xAC, 0xAC), (0xAD, 0xAD), (0xAE, 0xAE), (0xAF, 0x9D), (0xB0, 0xB0),
  (0xB1, 0xB1), (0xB2, 0xB2), (0xB3, 0xB3), (0xB4, 0xB4), (0xB5, 0xB5), (0xB6, 0xB6), (0xB7, 0xB7), (0xB8, 0x8F),
  (0xB9, 0xB9), (0xBB, 0xBB), (0xBC, 0xBC), (0xBD, 0xBD), (0xBE, 0xBE), (0xC4, 0xC4), (0xC5, 0xC5), (0xC6, 0xAF),
  (0xC9, 0xC9), (0xD3, 0xD3), (0xD5, 0xD5), (0xD6, 0xD6), (0xD7, 0xD7), (0xD8, 0xA8), (0xDC, 0xDC), (0xDF, 0xDF),
  (0xE4, 0xE4), (0xE5, 0xE5), (0xE6, 0xBF), (0xE9, 0xE9), (0xF3, 0xF3), (0xF5, 0xF5), (0xF6, 0xF6), (0xF7, 0xF7),
  (0xF8, 0xB8), (0xFC, 0xFC), (0x100, 0xC2), (0x101, 0xE2), (0x104, 0xC0), (0x105, 0xE0), (0x106, 0xC3),
  (0x107, 0xE3), (0x10C, 0xC8), (0x10D, 0xE8), (0x112, 0xC7), (0x113, 0xE7), (0x116, 0xCB), (0x117, 0xEB),
  (0x118, 0xC6), (0x119, 0xE6), (0x122, 0xCC), (0x123, 0xEC), (0x12A, 0xCE), (0x12B, 0xEE), (0x12E, 0xC1),
  (0x12F, 0xE1), (0x136, 0xCD), (0x137, 0xED), (0x13B, 0xCF), (0x13C, 0xEF), (0x141, 0xD9), (0x142, 0xF9),
  (0x143, 0xD1), (0x144, 0xF1), (0x145, 0xD2), (0x146, 0xF2), (0x14C, 0xD4), (0x14D, 0xF4), (0x156, 0xAA),
  (0x157, 0xBA), (0x15A, 0xDA), (0x15B, 0xFA), (0x160, 0xD0), (0x161, 0xF0), (0x16A, 0xDB), (0x16B, 0xFB),
  (0x172, 0xD8), (0x173, 0xF8), (0x179, 0xCA), (0x17A, 0xEA), (0x17B, 0xDD), (0x17C, 0xFD), (0x17D, 0xDE),
  (0x17E, 0xFE), (0x2C7, 0x8E), (0x2D9, 0xFF), (0x2DB, 0x9E), (0x2013, 0x96), (0x2014, 0x97), (0x2018, 0x91),
  (0x2019, 0x92), (0x201A, 0x82), (0x201C, 0x93), (0x201D, 0x94), (0x201E, 0x84), (0x2020, 0x86), (0x2021, 0x87),
  (0x2022, 0x95), (0x2026, 0x85), (0x2030, 0x89), (0x2039, 0x8B), (0x203A, 0x9B), (0x20AC, 0x80), (0x2122, 0x99),
  (0xFFFD, 0x3F)]

/-- single_byte_charsets.hpp 2364–2380: `ext` of impl_windows_1258. -/
def ext_windows_1258 : List Nat := [
  0x20AC, 0x81, 0x201A, 0x192, 0x201E, 0x2026, 0x2020, 0x2021, 0x2C6, 0x2030, 0x8A, 0x2039, 0x152, 0x8D, 0x8E,
  0x8F, 0x90, 0x2018, 0x2019, 0x201C, 0x201D, 0x2022, 0x2013, 0x2014, 0x2DC, 0x2122, 0x9A, 0x203A, 0x153, 0x9D,
  0x9E, 0x178, 0xA0, 0xA1, 0xA2, 0xA3, 0xA4, 0xA5, 0xA6, 0xA7, 0xA8, 0xA9, 0xAA, 0xAB, 0xAC, 0xAD, 0xAE, 0xAF,
  0xB0, 0xB1, 0xB2, 0xB3, 0xB4, 0xB5, 0xB6, 0xB7, 0xB8, 0xB9, 0xBA, 0xBB, 0xBC, 0xBD, 0xBE, 0xBF, 0xC0, 0xC1, 0xC2,
  0x102, 0xC4, 0xC5, 0xC6, 0xC7, 0xC8, 0xC9, 0xCA, 0xCB, 0x300, 0xCD, 0xCE, 0xCF, 0x110, 0xD1, 0x309, 0xD3, 0xD4,
  0x1A0, 0xD6, 0xD7, 0xD8, 0xD9, 0xDA, 0xDB, 0xDC, 0x1AF, 0x303, 0xDF, 0xE0, 0xE1, 0xE2, 0x103, 0xE4, 0xE5, 0xE6,
  0xE7, 0xE8, 0xE9, 0xEA, 0xEB, 0x301, 0xED, 0xEE, 0xEF, 0x111, 0xF1, 0x323, 0xF3, 0xF4, 0x1A1, 0xF6, 0xF7, 0xF8,
  0xF9, 0xFA, 0xFB, 0xFC, 0x1B0, 0x20AB, 0xFF]

/-- single_byte_charsets.hpp 2399–2432: `char_map` of impl_windows_1258. -/
def map_windows_1258 : List (Nat × Nat) := [
  (0x81, 0x81), (0x8A, 0x8A), (0x8D, 0x8D), (0x8E, 0x8E), (0x8F, 0x8F), (0x90, 0x90), (0x9A, 0x9A), (0x9D, 0x9D),
  (0x9E, 0x9E), (0x9F, 0x9F), (0xA0, 0xA0), (0xA1, 0xA1), (0xA2, 0xA2), (0xA3, 0xA3), (0xA4, 0xA4), (0xA5, 0xA5),
  (0xA6, 0xA6), (0xA7, 0xA7), (0xA8, 0xA8), (0xA9, 0xA9), (0xAA, 0xAA), (0xAB, 0xAB), (0xAC, 0xAC), (0xAD, 0xAD),
  (0xAE, 0xAE), (0xAF, 0xAF), (0xB0, 0xB0), (0xB1, 0xB1), (0xB2, 0xB2), (0xB3, 0xB3), (0xB4, 0xB4), (0xB5, 0xB5),
  (0xB6, 0xB6), (0xB7, 0xB7), (0xB8, 0xB8), (0xB9, 0xB9), (0xBA, 0xBA), (0xBB, 0xBB), (0xBC, 0xBC), (0xBD, 0xBD),
  (0xBE, 0xBE), (0xBF, 0xBF), (0xC0, 0xC0), (0xC1, 0xC1), (0xC2, 0xC2), (0xC4, 0xC4), (0xC5, 0xC5), (0xC6, 0xC6),
  (0xC7, 0xC7), (0xC8, 0xC8), (0xC9, 0xC9), (0xCA, 0xCA), (0xCB, 0xCB), (0xCD, 0xCD), (0xCE, 0xCE), (0xCF, 0xCF),
  (0xD1, 0xD1), (0xD3, 0xD3), (0xD4, 0xD4), (0xD6, 0xD6), (0xD7, 0xD7), (0xD8, 0xD8), (0xD9, 0xD9), (0xDA, 0xDA),
  (0xDB, 0xDB), (0xDC, 0xDC), (0xDF, 0xDF), (0xE0, 0xE0), (0xE1, 0xE1), (0xE2, 0xE2), (0xE4, 0xE4), (0xE5, 0xE5),
  (0xE6, 0xE6), (0xE7, 0xE7), (0xE8, 0xE8), (0xE9, 0xE9), (0xEA, 0xEA), (0xEB, 0xEB), (0xED, 0xED), (0xEE, 0xEE),
  (0xEF, 0xEF), (0xF1, 0xF1), (0xF3, 0xF3), (0xF4, 0xF4), (0xF6, 0xF6), (0xF7, 0xF7), (0xF8, 0xF8), (0xF9, 0xF9),
  (0xFA, 0xFA), (0xFB, 0xFB), (0xFC, 0xFC), (0xFF, 0xFF), (0x102, 0xC3), (0x103, 0xE3), (0x110, 0xD0),
  (0x111, 0xF0), (0x152, 0x8C), (0x153, 0x9C), (0x178, 0x9F), (0x192, 0x83), (0x1A0, 0xD5), (0x1A1, 0xF5),
  (0x1AF, 0xDD), (0x1B0, 0xFD), (0x2C6, 0x88), (0x2DC, 0x98), (0x300, 0xCC), (0x301, 0xEC), (0x303, 0xDE),
  (0x309, 0xD2), (0x323, 0xF2), (0x2013, 0x96), (0x2014, 0x97), (0x2018, 0x91), (0x2019, 0x92), (0x201A, 0x82),
  (0x201C, 0x93), (0x201D, 0x94), (0x201E, 0x84), (0x2020, 0x86), (0x2021, 0x87), (0x2022, 0x95), (0x2026, 0x85),
  (0x2030, 0x89), (0x2039, 0x8B), (0x203A, 0x9B), (0x20AB, 0xFE), (0x20AC, 0x80), (0x2122, 0x99), (0xFFFD, 0x3F)]

/-- single_byte_charsets.hpp 1801–1835: the cases of the switch of impl_windows_1252::encode_ext. -/
def cases_windows_1252 : List (Nat × Nat) := [
  (0x81, 0x81), (0x8D, 0x8D), (0x8F, 0x8F), (0x90, 0x90), (0x9D, 0x9D), (0x20AC, 0x80), (0x201A, 0x82),
  (0x192, 0x83), (0x201E, 0x84), (0x2026, 0x85), (0x2020, 0x86), (0x2021, 0x87), (0x2C6, 0x88), (0x2030, 0x89),
  (0x160, 0x8A), (0x2039, 0x8B), (0x152, 0x8C), (0x17D, 0x8E), (0x2018, 0x91), (0x2019, 0x92), (0x201C, 0x93),
  (0x201D, 0x94), (0x2022, 0x95), (0x2013, 0x96), (0x2014, 0x97), (0x2DC, 0x98), (0x2122, 0x99), (0x161, 0x9A),
  (0x203A, 0x9B), (0x153, 0x9C), (0x17E, 0x9E), (0x178, 0x9F), (0xFFFD, 0x3F)]

/-- single_byte_charsets.hpp 1996–2036: the cases of the switch of impl_windows_1254::encode_ext. -/
def cases_windows_1254 : List (Nat × Nat) := [
  (0x81, 0x81), (0x8D, 0x8D), (0x8E, 0x8E), (0x8F, 0x8F), (0x90, 0x90), (0x9D, 0x9D), (0x9E, 0x9E), (0x11E, 0xD0),
  (0x11F, 0xF0), (0x130, 0xDD), (0x131, 0xFD), (0x152, 0x8C), (0x153, 0x9C), (0x15E, 0xDE), (0x15F, 0xFE),
  (0x160, 0x8A), (0x161, 0x9A), (0x178, 0x9F), (0x192, 0x83), (0x2C6, 0x88), (0x2DC, 0x98), (0x2013, 0x96),
  (0x2014, 0x97), (0x2018, 0x91), (0x2019, 0x92), (0x201A, 0x82), (0x201C, 0x93), (0x201D, 0x94), (0x201E, 0x84),
  (0x2020, 0x86), (0x2021, 0x87), (0x2022, 0x95), (0x2026, 0x85), (0x2030, 0x89), (0x2039, 0x8B), (0x203A, 0x9B),
  (0x20AC, 0x80), (0x2122, 0x99), (0xFFFD, 0x3F)]

/-- single_byte_charsets.hpp 337–362: impl_ascii. -/
def ascii : Impl where
  decode := fun ch => if ch < 0x80 then ch else 0xFFFD
  encode := fun ch => if ch < 0x80 then ch else if ch = 0xFFFD then 0x3F else 0x100
  isValid := fun ch => decide (ch < 0x80)
  checksInvalid := true

/-- single_byte_charsets.hpp 363–386: impl_iso_8859_1. -/
def iso_8859_1 : Impl where
  decode := fun ch => ch
  encode := fun ch => if ch = 0xFFFD then 0x3F else ch
  isValid := fun _ => true
  checksInvalid := false

/-- single_byte_charsets.hpp 387–474: impl_iso_8859_2. -/
def iso_8859_2 : Impl where
  decode := fun ch => if ch ≤ 0xA0 then ch else ext_iso_8859_2.getD (ch - 0xA1) 0
  encode := fun ch => if ch ≤ 0xA0 then ch else lookup map_iso_8859_2 ch
  isValid := fun _ => true
  checksInvalid := false

/-- single_byte_charsets.hpp 475–564: impl_iso_8859_3. -/
def iso_8859_3 : Impl where
  decode := fun ch => if ch ≤ 0xA0 then ch else ext_iso_8859_3.getD (ch - 0xA1) 0
  encode := fun ch => if ch ≤ 0xA0 then ch else lookup map_iso_8859_3 ch
  isValid := fun ch => decide (ch < 0xA5) || (decide (ch ≠ 0xA5) && decide (ch ≠ 0xAE) && decide (ch ≠ 0xBE) && decide (ch
    ≠ 0xC3) && decide (ch ≠ 0xD0) && decide (ch ≠ 0xE3) && decide (ch ≠ 0xF0))
  checksInvalid := true

/-- single_byte_charsets.hpp 565–652: impl_iso_8859_4. -/
def iso_8859_4 : Impl where
  decode := fun ch => if ch ≤ 0xA0 then ch else ext_iso_8859_4.getD (ch - 0xA1) 0
  encode := fun ch => if ch ≤ 0xA0 then ch else lookup map_iso_8859_4 ch
  isValid := fun _ => true
  checksInvalid := false

/-- single_byte_charsets.hpp 653–740: impl_iso_8859_5. -/
def iso_8859_5 : Impl where
  decode := fun ch => if ch ≤ 0xA0 then ch else ext_iso_8859_5.getD (ch - 0xA1) 0
  encode := fun ch => if ch ≤ 0xA0 then ch else lookup map_iso_8859_5 ch
  isValid := fun _ => true
  checksInvalid := false

/-- single_byte_charsets.hpp 741–819: impl_iso_8859_6. -/
def iso_8859_6 : Impl where
  decode := fun ch => if ch ≤ 0xA0 then ch else ext_iso_8859_6.getD (ch - 0xA1) 0
  encode := fun ch => if ch ≤ 0xA0 then ch else lookup map_iso_8859_6 ch
  isValid := fun ch => decide (ch ≤ 0xA0) || decide (ch = 0xA4) || decide (ch = 0xAC) || decide (ch = 0xAD) || decide (ch =
    0xBB) || decide (ch = 0xBF) || (decide (0xC1 ≤ ch) && decide (ch ≤ 0xDA)) || (decide (0xE0 ≤ ch) && decide (ch
    ≤ 0xF2))
  checksInvalid := true

/-- single_byte_charsets.hpp 820–907: impl_iso_8859_7. -/
def iso_8859_7 : Impl where
  decode := fun ch => if ch ≤ 0xA0 then ch else ext_iso_8859_7.getD (ch - 0xA1) 0
  encode := fun ch => if ch ≤ 0xA0 then ch else lookup map_iso_8859_7 ch
  isValid := fun ch => decide (ch < 0xAE) || (decide (ch ≠ 0xAE) && decide (ch ≠ 0xD2) && decide (ch ≠ 0xFF))
  checksInvalid := true

/-- single_byte_charsets.hpp 908–987: impl_iso_8859_8. -/
def iso_8859_8 : Impl where
  decode := fun ch => if ch ≤ 0xA0 then ch else ext_iso_8859_8.getD (ch - 0xA1) 0
  encode := fun ch => if ch ≤ 0xA0 then ch else lookup map_iso_8859_8 ch
  isValid := fun ch => (decide (ch ≤ 0xBE) && decide (ch ≠ 0xA1)) || (decide (0xDF ≤ ch) && decide (ch ≤ 0xFA)) || decide
    (ch = 0xFD) || decide (ch = 0xFE)
  checksInvalid := true

/-- single_byte_charsets.hpp 988–1045: impl_iso_8859_9. -/
def iso_8859_9 : Impl where
  decode := fun ch => if ch ≤ 0xCF then ch else pick [(0xD0, 0x011E), (0xDD, 0x0130), (0xDE, 0x015E), (0xF0, 0x011F),
    (0xFD, 0x0131), (0xFE, 0x015F)] ch ch
  encode := fun ch => if ch ≤ 0xCF then ch else pick [(0x011E, 0xD0), (0x0130, 0xDD), (0x015E, 0xDE), (0x011F, 0xF0),
    (0x0131, 0xFD), (0x015F, 0xFE), (0xD0, 0x100), (0xDD, 0x100), (0xDE, 0x100), (0xF0, 0x100), (0xFD, 0x100),
    (0xFE, 0x100), (0xFFFD, 0x3F)] ch ch
  isValid := fun _ => true
  checksInvalid := false

/-- single_byte_charsets.hpp 1046–1133: impl_iso_8859_10. -/
def iso_8859_10 : Impl where
  decode := fun ch => if ch ≤ 0xA0 then ch else ext_iso_8859_10.getD (ch - 0xA1) 0
  encode := fun ch => if ch ≤ 0xA0 then ch else lookup map_iso_8859_10 ch
  isValid := fun _ => true
  checksInvalid := false

/-- single_byte_charsets.hpp 1134–1219: impl_iso_8859_11. -/
def iso_8859_11 : Impl where
  decode := fun ch => if ch ≤ 0xA0 then ch else ext_iso_8859_11.getD (ch - 0xA1) 0
  encode := fun ch => if ch ≤ 0xA0 then ch else lookup map_iso_8859_11 ch
  isValid := fun ch => decide (ch ≤ 0xDA) || (decide (ch ≥ 0xDF) && decide (ch ≤ 0xFB))
  checksInvalid := true

/-- single_byte_charsets.hpp 1220–1307: impl_iso_8859_13. -/
def iso_8859_13 : Impl where
  decode := fun ch => if ch ≤ 0xA0 then ch else ext_iso_8859_13.getD (ch - 0xA1) 0
  encode := fun ch => if ch ≤ 0xA0 then ch else lookup map_iso_8859_13 ch
  isValid := fun _ => true
  checksInvalid := false

/-- single_byte_charsets.hpp 1308–1396: impl_iso_8859_14. -/
def iso_8859_14 : Impl where
  decode := fun ch => if ch ≤ 0xA0 then ch else ext_iso_8859_14.getD (ch - 0xA1) 0
  encode := fun ch => if ch ≤ 0xA0 then ch else lookup map_iso_8859_14 ch
  isValid := fun _ => true
  checksInvalid := false

/-- single_byte_charsets.hpp 1397–1468: impl_iso_8859_15. -/
def iso_8859_15 : Impl where
  decode := fun ch => if ch ≤ 0xA3 ∨ 0xBF ≤ ch then ch else ext_iso_8859_15.getD (ch - 0xA4) 0
  encode := fun ch => if ch < 0xA0 ∨ (0xBE < ch ∧ ch < 0x100) then ch else pick [(0x20AC, 0xA4), (0x0160, 0xA6),
    (0x0161, 0xA8), (0x017D, 0xB4), (0x017E, 0xB8), (0x0152, 0xBC), (0x0153, 0xBD), (0x0178, 0xBE), (0xFFFD, 0x3F),
    (0xA4, 0x100), (0xA6, 0x100), (0xA8, 0x100), (0xB4, 0x100), (0xB8, 0x100), (0xBC, 0x100), (0xBD, 0x100),
    (0xBE, 0x100)] ch ch
  isValid := fun _ => true
  checksInvalid := false

/-- single_byte_charsets.hpp 1469–1556: impl_iso_8859_16. -/
def iso_8859_16 : Impl where
  decode := fun ch => if ch ≤ 0xA0 then ch else ext_iso_8859_16.getD (ch - 0xA1) 0
  encode := fun ch => if ch ≤ 0xA0 then ch else lookup map_iso_8859_16 ch
  isValid := fun _ => true
  checksInvalid := false

/-- single_byte_charsets.hpp 1557–1654: impl_windows_1250. -/
def windows_1250 : Impl where
  decode := fun ch => if ch < 0x80 then ch else ext_windows_1250.getD (ch - 0x80) 0
  encode := fun ch => if ch < 0x80 then ch else lookup map_windows_1250 ch
  isValid := fun _ => true
  checksInvalid := false

/-- single_byte_charsets.hpp 1655–1754: impl_windows_1251. -/
def windows_1251 : Impl where
  decode := fun ch => if ch < 0x80 then ch else ext_windows_1251.getD (ch - 0x80) 0
  encode := fun ch => if ch < 0x80 then ch else lookup map_windows_1251 ch
  isValid := fun _ => true
  checksInvalid := false

/-- single_byte_charsets.hpp 1755–1840: impl_windows_1252. -/
def windows_1252 : Impl where
  decode := fun ch => if ch < 0x80 ∨ 0x9F < ch then ch else ext_windows_1252.getD (ch - 0x80) 0
  encode := fun ch => if ch < 0x80 ∨ (0x9F < ch ∧ ch < 0x100) then ch else pick cases_windows_1252 ch 0x100
  isValid := fun _ => true
  checksInvalid := false

/-- single_byte_charsets.hpp 1841–1939: impl_windows_1253. -/
def windows_1253 : Impl where
  decode := fun ch => if ch < 0x80 then ch else ext_windows_1253.getD (ch - 0x80) 0
  encode := fun ch => if ch < 0x80 then ch else lookup map_windows_1253 ch
  isValid := fun ch => decide (ch < 0xAA) || (decide (ch ≠ 0xAA) && decide (ch ≠ 0xD2) && decide (ch ≠ 0xFF))
  checksInvalid := true

/-- single_byte_charsets.hpp 1940–2041: impl_windows_1254. -/
def windows_1254 : Impl where
  decode := fun ch => if ch ≤ 0x7F then ch else if ch ≤ 0x9F then ext_windows_1254.getD (ch - 0x80) 0 else
    pick [(0xD0, 0x011E), (0xDD, 0x0130), (0xDE, 0x015E), (0xF0, 0x011F), (0xFD, 0x0131), (0xFE, 0x015F)] ch ch
  encode := fun ch => if ch < 0x80 then ch else pick cases_windows_1254 ch (if 0xA0 ≤ ch ∧ ch ≤ 0xFF then ch else 0x100)
  isValid := fun _ => true
  checksInvalid := false

/-- single_byte_charsets.hpp 2042–2142: impl_windows_1255. -/
def windows_1255 : Impl where
  decode := fun ch => if ch < 0x80 then ch else ext_windows_1255.getD (ch - 0x80) 0
  encode := fun ch => if ch < 0x80 then ch else lookup map_windows_1255 ch
  isValid := fun ch => decide (ch < 0xD9) || (decide (ch ≠ 0xD9) && decide (ch ≠ 0xDA) && decide (ch ≠ 0xDB) && decide (ch
    ≠ 0xDC) && decide (ch ≠ 0xDD) && decide (ch ≠ 0xDE) && decide (ch ≠ 0xDF) && decide (ch ≠ 0xFB) && decide (ch
    ≠ 0xFC) && decide (ch ≠ 0xFF))
  checksInvalid := true

/-- single_byte_charsets.hpp 2143–2242: impl_windows_1256. -/
def windows_1256 : Impl where
  decode := fun ch => if ch < 0x80 then ch else ext_windows_1256.getD (ch - 0x80) 0
  encode := fun ch => if ch < 0x80 then ch else lookup map_windows_1256 ch
  isValid := fun _ => true
  checksInvalid := false

/-- single_byte_charsets.hpp 2243–2341: impl_windows_1257. -/
def windows_1257 : Impl where
  decode := fun ch => if ch < 0x80 then ch else ext_windows_1257.getD (ch - 0x80) 0
  encode := fun ch => if ch < 0x80 then ch else lookup map_windows_1257 ch
  isValid := fun ch => decide (ch ≠ 0xA1) && decide (ch ≠ 0xA5)
  checksInvalid := true

/-- single_byte_charsets.hpp 2342–2440: impl_windows_1258. -/
def windows_1258 : Impl where
  decode := fun ch => if ch < 0x80 then ch else ext_windows_1258.getD (ch - 0x80) 0
  encode := fun ch => if ch < 0x80 then ch else lookup map_windows_1258 ch
  isValid := fun _ => true
  checksInvalid := false

/-- All the single-byte charsets (3150–3174). -/
def all : List Impl := [
  ascii, iso_8859_1, iso_8859_2, iso_8859_3, iso_8859_4, iso_8859_5, iso_8859_6, iso_8859_7, iso_8859_8,
  iso_8859_9, iso_8859_10, iso_8859_11, iso_8859_13, iso_8859_14, iso_8859_15, iso_8859_16, windows_1250,
  windows_1251, windows_1252, windows_1253, windows_1254, windows_1255, windows_1256, windows_1257, windows_1258]

end Strf.Sbc
