/-!
The Grapheme_Cluster_Break and Extended_Pictographic properties of Unicode 13.0.0, as a list of (last code point of the
run, value) in ascending order. Source: the copy of the Unicode Character Database in Perl 5.38 (Unicode 15.0.0),
read with Unicode::UCD::prop_invmap("GCB"), which reports Extended_Pictographic code points with the value Other apart;
code points whose Age is 14.0 or 15.0 are given the value Other, which they had while unassigned (unless they are
Extended_Pictographic, as they were before being assigned), and U+1734, the only older code point whose value changed
later, the one it had (Extend). Runs of LV and LVT, all within
AC00..D7A3, are merged: in `lvt` here; LV are those at a multiple of 28 from AC00 (Unicode, section 3.12).
-/
namespace Strf.WidthCalc

/-- Values of Grapheme_Cluster_Break, and `pict` for Extended_Pictographic. -/
inductive Gcb | other | cr | lf | control | extend | zwj | ri | prepend | spacingMark | l | v | t | lv | lvt | pict
deriving DecidableEq, Repr

/-- Part 1 of the runs, up to U+81A. -/
def runs0 : List (Nat × Gcb) :=
  [(0x9, .control), (0xA, .lf), (0xC, .control), (0xD, .cr), (0x1F, .control), (0x7E, .other), (0x9F, .control),
   (0xA8, .other), (0xA9, .pict), (0xAC, .other), (0xAD, .control), (0xAE, .pict), (0x2FF, .other),
   (0x36F, .extend), (0x482, .other), (0x489, .extend), (0x590, .other), (0x5BD, .extend), (0x5BE, .other),
   (0x5BF, .extend), (0x5C0, .other), (0x5C2, .extend), (0x5C3, .other), (0x5C5, .extend), (0x5C6, .other),
   (0x5C7, .extend), (0x5FF, .other), (0x605, .prepend), (0x60F, .other), (0x61A, .extend), (0x61B, .other),
   (0x61C, .control), (0x64A, .other), (0x65F, .extend), (0x66F, .other), (0x670, .extend), (0x6D5, .other),
   (0x6DC, .extend), (0x6DD, .prepend), (0x6DE, .other), (0x6E4, .extend), (0x6E6, .other), (0x6E8, .extend),
   (0x6E9, .other), (0x6ED, .extend), (0x70E, .other), (0x70F, .prepend), (0x710, .other), (0x711, .extend),
   (0x72F, .other), (0x74A, .extend), (0x7A5, .other), (0x7B0, .extend), (0x7EA, .other), (0x7F3, .extend),
   (0x7FC, .other), (0x7FD, .extend), (0x815, .other), (0x819, .extend), (0x81A, .other)]

/-- Part 2 of the runs, up to U+A51. -/
def runs1 : List (Nat × Gcb) :=
  [(0x823, .extend), (0x824, .other), (0x827, .extend), (0x828, .other), (0x82D, .extend), (0x858, .other),
   (0x85B, .extend), (0x8D2, .other), (0x8E1, .extend), (0x8E2, .prepend), (0x902, .extend), (0x903, .spacingMark),
   (0x939, .other), (0x93A, .extend), (0x93B, .spacingMark), (0x93C, .extend), (0x93D, .other),
   (0x940, .spacingMark), (0x948, .extend), (0x94C, .spacingMark), (0x94D, .extend), (0x94F, .spacingMark),
   (0x950, .other), (0x957, .extend), (0x961, .other), (0x963, .extend), (0x980, .other), (0x981, .extend),
   (0x983, .spacingMark), (0x9BB, .other), (0x9BC, .extend), (0x9BD, .other), (0x9BE, .extend),
   (0x9C0, .spacingMark), (0x9C4, .extend), (0x9C6, .other), (0x9C8, .spacingMark), (0x9CA, .other),
   (0x9CC, .spacingMark), (0x9CD, .extend), (0x9D6, .other), (0x9D7, .extend), (0x9E1, .other), (0x9E3, .extend),
   (0x9FD, .other), (0x9FE, .extend), (0xA00, .other), (0xA02, .extend), (0xA03, .spacingMark), (0xA3B, .other),
   (0xA3C, .extend), (0xA3D, .other), (0xA40, .spacingMark), (0xA42, .extend), (0xA46, .other), (0xA48, .extend),
   (0xA4A, .other), (0xA4D, .extend), (0xA50, .other), (0xA51, .extend)]

/-- Part 3 of the runs, up to U+C40. -/
def runs2 : List (Nat × Gcb) :=
  [(0xA6F, .other), (0xA71, .extend), (0xA74, .other), (0xA75, .extend), (0xA80, .other), (0xA82, .extend),
   (0xA83, .spacingMark), (0xABB, .other), (0xABC, .extend), (0xABD, .other), (0xAC0, .spacingMark),
   (0xAC5, .extend), (0xAC6, .other), (0xAC8, .extend), (0xAC9, .spacingMark), (0xACA, .other),
   (0xACC, .spacingMark), (0xACD, .extend), (0xAE1, .other), (0xAE3, .extend), (0xAF9, .other), (0xAFF, .extend),
   (0xB00, .other), (0xB01, .extend), (0xB03, .spacingMark), (0xB3B, .other), (0xB3C, .extend), (0xB3D, .other),
   (0xB3F, .extend), (0xB40, .spacingMark), (0xB44, .extend), (0xB46, .other), (0xB48, .spacingMark),
   (0xB4A, .other), (0xB4C, .spacingMark), (0xB4D, .extend), (0xB54, .other), (0xB57, .extend), (0xB61, .other),
   (0xB63, .extend), (0xB81, .other), (0xB82, .extend), (0xBBD, .other), (0xBBE, .extend), (0xBBF, .spacingMark),
   (0xBC0, .extend), (0xBC2, .spacingMark), (0xBC5, .other), (0xBC8, .spacingMark), (0xBC9, .other),
   (0xBCC, .spacingMark), (0xBCD, .extend), (0xBD6, .other), (0xBD7, .extend), (0xBFF, .other), (0xC00, .extend),
   (0xC03, .spacingMark), (0xC04, .extend), (0xC3D, .other), (0xC40, .extend)]

/-- Part 4 of the runs, up to U+DD6. -/
def runs3 : List (Nat × Gcb) :=
  [(0xC44, .spacingMark), (0xC45, .other), (0xC48, .extend), (0xC49, .other), (0xC4D, .extend), (0xC54, .other),
   (0xC56, .extend), (0xC61, .other), (0xC63, .extend), (0xC80, .other), (0xC81, .extend), (0xC83, .spacingMark),
   (0xCBB, .other), (0xCBC, .extend), (0xCBD, .other), (0xCBE, .spacingMark), (0xCBF, .extend),
   (0xCC1, .spacingMark), (0xCC2, .extend), (0xCC4, .spacingMark), (0xCC5, .other), (0xCC6, .extend),
   (0xCC8, .spacingMark), (0xCC9, .other), (0xCCB, .spacingMark), (0xCCD, .extend), (0xCD4, .other),
   (0xCD6, .extend), (0xCE1, .other), (0xCE3, .extend), (0xCFF, .other), (0xD01, .extend), (0xD03, .spacingMark),
   (0xD3A, .other), (0xD3C, .extend), (0xD3D, .other), (0xD3E, .extend), (0xD40, .spacingMark), (0xD44, .extend),
   (0xD45, .other), (0xD48, .spacingMark), (0xD49, .other), (0xD4C, .spacingMark), (0xD4D, .extend),
   (0xD4E, .prepend), (0xD56, .other), (0xD57, .extend), (0xD61, .other), (0xD63, .extend), (0xD80, .other),
   (0xD81, .extend), (0xD83, .spacingMark), (0xDC9, .other), (0xDCA, .extend), (0xDCE, .other), (0xDCF, .extend),
   (0xDD1, .spacingMark), (0xDD4, .extend), (0xDD5, .other), (0xDD6, .extend)]

/-- Part 5 of the runs, up to U+1084. -/
def runs4 : List (Nat × Gcb) :=
  [(0xDD7, .other), (0xDDE, .spacingMark), (0xDDF, .extend), (0xDF1, .other), (0xDF3, .spacingMark),
   (0xE30, .other), (0xE31, .extend), (0xE32, .other), (0xE33, .spacingMark), (0xE3A, .extend), (0xE46, .other),
   (0xE4E, .extend), (0xEB0, .other), (0xEB1, .extend), (0xEB2, .other), (0xEB3, .spacingMark), (0xEBC, .extend),
   (0xEC7, .other), (0xECD, .extend), (0xF17, .other), (0xF19, .extend), (0xF34, .other), (0xF35, .extend),
   (0xF36, .other), (0xF37, .extend), (0xF38, .other), (0xF39, .extend), (0xF3D, .other), (0xF3F, .spacingMark),
   (0xF70, .other), (0xF7E, .extend), (0xF7F, .spacingMark), (0xF84, .extend), (0xF85, .other), (0xF87, .extend),
   (0xF8C, .other), (0xF97, .extend), (0xF98, .other), (0xFBC, .extend), (0xFC5, .other), (0xFC6, .extend),
   (0x102C, .other), (0x1030, .extend), (0x1031, .spacingMark), (0x1037, .extend), (0x1038, .other),
   (0x103A, .extend), (0x103C, .spacingMark), (0x103E, .extend), (0x1055, .other), (0x1057, .spacingMark),
   (0x1059, .extend), (0x105D, .other), (0x1060, .extend), (0x1070, .other), (0x1074, .extend), (0x1081, .other),
   (0x1082, .extend), (0x1083, .other), (0x1084, .spacingMark)]

/-- Part 6 of the runs, up to U+1A64. -/
def runs5 : List (Nat × Gcb) :=
  [(0x1086, .extend), (0x108C, .other), (0x108D, .extend), (0x109C, .other), (0x109D, .extend), (0x10FF, .other),
   (0x115F, .l), (0x11A7, .v), (0x11FF, .t), (0x135C, .other), (0x135F, .extend), (0x1711, .other),
   (0x1714, .extend), (0x1731, .other), (0x1734, .extend), (0x1751, .other), (0x1753, .extend), (0x1771, .other),
   (0x1773, .extend), (0x17B3, .other), (0x17B5, .extend), (0x17B6, .spacingMark), (0x17BD, .extend),
   (0x17C5, .spacingMark), (0x17C6, .extend), (0x17C8, .spacingMark), (0x17D3, .extend), (0x17DC, .other),
   (0x17DD, .extend), (0x180A, .other), (0x180D, .extend), (0x180E, .control), (0x1884, .other), (0x1886, .extend),
   (0x18A8, .other), (0x18A9, .extend), (0x191F, .other), (0x1922, .extend), (0x1926, .spacingMark),
   (0x1928, .extend), (0x192B, .spacingMark), (0x192F, .other), (0x1931, .spacingMark), (0x1932, .extend),
   (0x1938, .spacingMark), (0x193B, .extend), (0x1A16, .other), (0x1A18, .extend), (0x1A1A, .spacingMark),
   (0x1A1B, .extend), (0x1A54, .other), (0x1A55, .spacingMark), (0x1A56, .extend), (0x1A57, .spacingMark),
   (0x1A5E, .extend), (0x1A5F, .other), (0x1A60, .extend), (0x1A61, .other), (0x1A62, .extend), (0x1A64, .other)]

/-- Part 7 of the runs, up to U+1DFF. -/
def runs6 : List (Nat × Gcb) :=
  [(0x1A6C, .extend), (0x1A72, .spacingMark), (0x1A7C, .extend), (0x1A7E, .other), (0x1A7F, .extend),
   (0x1AAF, .other), (0x1AC0, .extend), (0x1AFF, .other), (0x1B03, .extend), (0x1B04, .spacingMark),
   (0x1B33, .other), (0x1B3A, .extend), (0x1B3B, .spacingMark), (0x1B3C, .extend), (0x1B41, .spacingMark),
   (0x1B42, .extend), (0x1B44, .spacingMark), (0x1B6A, .other), (0x1B73, .extend), (0x1B7F, .other),
   (0x1B81, .extend), (0x1B82, .spacingMark), (0x1BA0, .other), (0x1BA1, .spacingMark), (0x1BA5, .extend),
   (0x1BA7, .spacingMark), (0x1BA9, .extend), (0x1BAA, .spacingMark), (0x1BAD, .extend), (0x1BE5, .other),
   (0x1BE6, .extend), (0x1BE7, .spacingMark), (0x1BE9, .extend), (0x1BEC, .spacingMark), (0x1BED, .extend),
   (0x1BEE, .spacingMark), (0x1BF1, .extend), (0x1BF3, .spacingMark), (0x1C23, .other), (0x1C2B, .spacingMark),
   (0x1C33, .extend), (0x1C35, .spacingMark), (0x1C37, .extend), (0x1CCF, .other), (0x1CD2, .extend),
   (0x1CD3, .other), (0x1CE0, .extend), (0x1CE1, .spacingMark), (0x1CE8, .extend), (0x1CEC, .other),
   (0x1CED, .extend), (0x1CF3, .other), (0x1CF4, .extend), (0x1CF6, .other), (0x1CF7, .spacingMark),
   (0x1CF9, .extend), (0x1DBF, .other), (0x1DF9, .extend), (0x1DFA, .other), (0x1DFF, .extend)]

/-- Part 8 of the runs, up to U+271C. -/
def runs7 : List (Nat × Gcb) :=
  [(0x200A, .other), (0x200B, .control), (0x200C, .extend), (0x200D, .zwj), (0x200F, .control), (0x2027, .other),
   (0x202E, .control), (0x203B, .other), (0x203C, .pict), (0x2048, .other), (0x2049, .pict), (0x205F, .other),
   (0x206F, .control), (0x20CF, .other), (0x20F0, .extend), (0x2121, .other), (0x2122, .pict), (0x2138, .other),
   (0x2139, .pict), (0x2193, .other), (0x2199, .pict), (0x21A8, .other), (0x21AA, .pict), (0x2319, .other),
   (0x231B, .pict), (0x2327, .other), (0x2328, .pict), (0x2387, .other), (0x2388, .pict), (0x23CE, .other),
   (0x23CF, .pict), (0x23E8, .other), (0x23F3, .pict), (0x23F7, .other), (0x23FA, .pict), (0x24C1, .other),
   (0x24C2, .pict), (0x25A9, .other), (0x25AB, .pict), (0x25B5, .other), (0x25B6, .pict), (0x25BF, .other),
   (0x25C0, .pict), (0x25FA, .other), (0x25FE, .pict), (0x25FF, .other), (0x2605, .pict), (0x2606, .other),
   (0x2612, .pict), (0x2613, .other), (0x2685, .pict), (0x268F, .other), (0x2705, .pict), (0x2707, .other),
   (0x2712, .pict), (0x2713, .other), (0x2714, .pict), (0x2715, .other), (0x2716, .pict), (0x271C, .other)]

/-- Part 9 of the runs, up to U+A67D. -/
def runs8 : List (Nat × Gcb) :=
  [(0x271D, .pict), (0x2720, .other), (0x2721, .pict), (0x2727, .other), (0x2728, .pict), (0x2732, .other),
   (0x2734, .pict), (0x2743, .other), (0x2744, .pict), (0x2746, .other), (0x2747, .pict), (0x274B, .other),
   (0x274C, .pict), (0x274D, .other), (0x274E, .pict), (0x2752, .other), (0x2755, .pict), (0x2756, .other),
   (0x2757, .pict), (0x2762, .other), (0x2767, .pict), (0x2794, .other), (0x2797, .pict), (0x27A0, .other),
   (0x27A1, .pict), (0x27AF, .other), (0x27B0, .pict), (0x27BE, .other), (0x27BF, .pict), (0x2933, .other),
   (0x2935, .pict), (0x2B04, .other), (0x2B07, .pict), (0x2B1A, .other), (0x2B1C, .pict), (0x2B4F, .other),
   (0x2B50, .pict), (0x2B54, .other), (0x2B55, .pict), (0x2CEE, .other), (0x2CF1, .extend), (0x2D7E, .other),
   (0x2D7F, .extend), (0x2DDF, .other), (0x2DFF, .extend), (0x3029, .other), (0x302F, .extend), (0x3030, .pict),
   (0x303C, .other), (0x303D, .pict), (0x3098, .other), (0x309A, .extend), (0x3296, .other), (0x3297, .pict),
   (0x3298, .other), (0x3299, .pict), (0xA66E, .other), (0xA672, .extend), (0xA673, .other), (0xA67D, .extend)]

/-- Part 10 of the runs, up to U+AAB1. -/
def runs9 : List (Nat × Gcb) :=
  [(0xA69D, .other), (0xA69F, .extend), (0xA6EF, .other), (0xA6F1, .extend), (0xA801, .other), (0xA802, .extend),
   (0xA805, .other), (0xA806, .extend), (0xA80A, .other), (0xA80B, .extend), (0xA822, .other),
   (0xA824, .spacingMark), (0xA826, .extend), (0xA827, .spacingMark), (0xA82B, .other), (0xA82C, .extend),
   (0xA87F, .other), (0xA881, .spacingMark), (0xA8B3, .other), (0xA8C3, .spacingMark), (0xA8C5, .extend),
   (0xA8DF, .other), (0xA8F1, .extend), (0xA8FE, .other), (0xA8FF, .extend), (0xA925, .other), (0xA92D, .extend),
   (0xA946, .other), (0xA951, .extend), (0xA953, .spacingMark), (0xA95F, .other), (0xA97C, .l), (0xA97F, .other),
   (0xA982, .extend), (0xA983, .spacingMark), (0xA9B2, .other), (0xA9B3, .extend), (0xA9B5, .spacingMark),
   (0xA9B9, .extend), (0xA9BB, .spacingMark), (0xA9BD, .extend), (0xA9C0, .spacingMark), (0xA9E4, .other),
   (0xA9E5, .extend), (0xAA28, .other), (0xAA2E, .extend), (0xAA30, .spacingMark), (0xAA32, .extend),
   (0xAA34, .spacingMark), (0xAA36, .extend), (0xAA42, .other), (0xAA43, .extend), (0xAA4B, .other),
   (0xAA4C, .extend), (0xAA4D, .spacingMark), (0xAA7B, .other), (0xAA7C, .extend), (0xAAAF, .other),
   (0xAAB0, .extend), (0xAAB1, .other)]

/-- Part 11 of the runs, up to U+10D23. -/
def runs10 : List (Nat × Gcb) :=
  [(0xAAB4, .extend), (0xAAB6, .other), (0xAAB8, .extend), (0xAABD, .other), (0xAABF, .extend), (0xAAC0, .other),
   (0xAAC1, .extend), (0xAAEA, .other), (0xAAEB, .spacingMark), (0xAAED, .extend), (0xAAEF, .spacingMark),
   (0xAAF4, .other), (0xAAF5, .spacingMark), (0xAAF6, .extend), (0xABE2, .other), (0xABE4, .spacingMark),
   (0xABE5, .extend), (0xABE7, .spacingMark), (0xABE8, .extend), (0xABEA, .spacingMark), (0xABEB, .other),
   (0xABEC, .spacingMark), (0xABED, .extend), (0xABFF, .other), (0xD7A3, .lvt), (0xD7AF, .other), (0xD7C6, .v),
   (0xD7CA, .other), (0xD7FB, .t), (0xFB1D, .other), (0xFB1E, .extend), (0xFDFF, .other), (0xFE0F, .extend),
   (0xFE1F, .other), (0xFE2F, .extend), (0xFEFE, .other), (0xFEFF, .control), (0xFF9D, .other), (0xFF9F, .extend),
   (0xFFEF, .other), (0xFFFB, .control), (0x101FC, .other), (0x101FD, .extend), (0x102DF, .other),
   (0x102E0, .extend), (0x10375, .other), (0x1037A, .extend), (0x10A00, .other), (0x10A03, .extend),
   (0x10A04, .other), (0x10A06, .extend), (0x10A0B, .other), (0x10A0F, .extend), (0x10A37, .other),
   (0x10A3A, .extend), (0x10A3E, .other), (0x10A3F, .extend), (0x10AE4, .other), (0x10AE6, .extend),
   (0x10D23, .other)]

/-- Part 12 of the runs, up to U+112EA. -/
def runs11 : List (Nat × Gcb) :=
  [(0x10D27, .extend), (0x10EAA, .other), (0x10EAC, .extend), (0x10F45, .other), (0x10F50, .extend),
   (0x10FFF, .other), (0x11000, .spacingMark), (0x11001, .extend), (0x11002, .spacingMark), (0x11037, .other),
   (0x11046, .extend), (0x1107E, .other), (0x11081, .extend), (0x11082, .spacingMark), (0x110AF, .other),
   (0x110B2, .spacingMark), (0x110B6, .extend), (0x110B8, .spacingMark), (0x110BA, .extend), (0x110BC, .other),
   (0x110BD, .prepend), (0x110CC, .other), (0x110CD, .prepend), (0x110FF, .other), (0x11102, .extend),
   (0x11126, .other), (0x1112B, .extend), (0x1112C, .spacingMark), (0x11134, .extend), (0x11144, .other),
   (0x11146, .spacingMark), (0x11172, .other), (0x11173, .extend), (0x1117F, .other), (0x11181, .extend),
   (0x11182, .spacingMark), (0x111B2, .other), (0x111B5, .spacingMark), (0x111BE, .extend),
   (0x111C0, .spacingMark), (0x111C1, .other), (0x111C3, .prepend), (0x111C8, .other), (0x111CC, .extend),
   (0x111CD, .other), (0x111CE, .spacingMark), (0x111CF, .extend), (0x1122B, .other), (0x1122E, .spacingMark),
   (0x11231, .extend), (0x11233, .spacingMark), (0x11234, .extend), (0x11235, .spacingMark), (0x11237, .extend),
   (0x1123D, .other), (0x1123E, .extend), (0x112DE, .other), (0x112DF, .extend), (0x112E2, .spacingMark),
   (0x112EA, .extend)]

/-- Part 13 of the runs, up to U+1163E. -/
def runs12 : List (Nat × Gcb) :=
  [(0x112FF, .other), (0x11301, .extend), (0x11303, .spacingMark), (0x1133A, .other), (0x1133C, .extend),
   (0x1133D, .other), (0x1133E, .extend), (0x1133F, .spacingMark), (0x11340, .extend), (0x11344, .spacingMark),
   (0x11346, .other), (0x11348, .spacingMark), (0x1134A, .other), (0x1134D, .spacingMark), (0x11356, .other),
   (0x11357, .extend), (0x11361, .other), (0x11363, .spacingMark), (0x11365, .other), (0x1136C, .extend),
   (0x1136F, .other), (0x11374, .extend), (0x11434, .other), (0x11437, .spacingMark), (0x1143F, .extend),
   (0x11441, .spacingMark), (0x11444, .extend), (0x11445, .spacingMark), (0x11446, .extend), (0x1145D, .other),
   (0x1145E, .extend), (0x114AF, .other), (0x114B0, .extend), (0x114B2, .spacingMark), (0x114B8, .extend),
   (0x114B9, .spacingMark), (0x114BA, .extend), (0x114BC, .spacingMark), (0x114BD, .extend),
   (0x114BE, .spacingMark), (0x114C0, .extend), (0x114C1, .spacingMark), (0x114C3, .extend), (0x115AE, .other),
   (0x115AF, .extend), (0x115B1, .spacingMark), (0x115B5, .extend), (0x115B7, .other), (0x115BB, .spacingMark),
   (0x115BD, .extend), (0x115BE, .spacingMark), (0x115C0, .extend), (0x115DB, .other), (0x115DD, .extend),
   (0x1162F, .other), (0x11632, .spacingMark), (0x1163A, .extend), (0x1163C, .spacingMark), (0x1163D, .extend),
   (0x1163E, .spacingMark)]

/-- Part 14 of the runs, up to U+11A97. -/
def runs13 : List (Nat × Gcb) :=
  [(0x11640, .extend), (0x116AA, .other), (0x116AB, .extend), (0x116AC, .spacingMark), (0x116AD, .extend),
   (0x116AF, .spacingMark), (0x116B5, .extend), (0x116B6, .spacingMark), (0x116B7, .extend), (0x1171C, .other),
   (0x1171F, .extend), (0x11721, .other), (0x11725, .extend), (0x11726, .spacingMark), (0x1172B, .extend),
   (0x1182B, .other), (0x1182E, .spacingMark), (0x11837, .extend), (0x11838, .spacingMark), (0x1183A, .extend),
   (0x1192F, .other), (0x11930, .extend), (0x11935, .spacingMark), (0x11936, .other), (0x11938, .spacingMark),
   (0x1193A, .other), (0x1193C, .extend), (0x1193D, .spacingMark), (0x1193E, .extend), (0x1193F, .prepend),
   (0x11940, .spacingMark), (0x11941, .prepend), (0x11942, .spacingMark), (0x11943, .extend), (0x119D0, .other),
   (0x119D3, .spacingMark), (0x119D7, .extend), (0x119D9, .other), (0x119DB, .extend), (0x119DF, .spacingMark),
   (0x119E0, .extend), (0x119E3, .other), (0x119E4, .spacingMark), (0x11A00, .other), (0x11A0A, .extend),
   (0x11A32, .other), (0x11A38, .extend), (0x11A39, .spacingMark), (0x11A3A, .prepend), (0x11A3E, .extend),
   (0x11A46, .other), (0x11A47, .extend), (0x11A50, .other), (0x11A56, .extend), (0x11A58, .spacingMark),
   (0x11A5B, .extend), (0x11A83, .other), (0x11A89, .prepend), (0x11A96, .extend), (0x11A97, .spacingMark)]

/-- Part 15 of the runs, up to U+1D164. -/
def runs14 : List (Nat × Gcb) :=
  [(0x11A99, .extend), (0x11C2E, .other), (0x11C2F, .spacingMark), (0x11C36, .extend), (0x11C37, .other),
   (0x11C3D, .extend), (0x11C3E, .spacingMark), (0x11C3F, .extend), (0x11C91, .other), (0x11CA7, .extend),
   (0x11CA8, .other), (0x11CA9, .spacingMark), (0x11CB0, .extend), (0x11CB1, .spacingMark), (0x11CB3, .extend),
   (0x11CB4, .spacingMark), (0x11CB6, .extend), (0x11D30, .other), (0x11D36, .extend), (0x11D39, .other),
   (0x11D3A, .extend), (0x11D3B, .other), (0x11D3D, .extend), (0x11D3E, .other), (0x11D45, .extend),
   (0x11D46, .prepend), (0x11D47, .extend), (0x11D89, .other), (0x11D8E, .spacingMark), (0x11D8F, .other),
   (0x11D91, .extend), (0x11D92, .other), (0x11D94, .spacingMark), (0x11D95, .extend), (0x11D96, .spacingMark),
   (0x11D97, .extend), (0x11EF2, .other), (0x11EF4, .extend), (0x11EF6, .spacingMark), (0x1342F, .other),
   (0x13438, .control), (0x16AEF, .other), (0x16AF4, .extend), (0x16B2F, .other), (0x16B36, .extend),
   (0x16F4E, .other), (0x16F4F, .extend), (0x16F50, .other), (0x16F87, .spacingMark), (0x16F8E, .other),
   (0x16F92, .extend), (0x16FE3, .other), (0x16FE4, .extend), (0x16FEF, .other), (0x16FF1, .spacingMark),
   (0x1BC9C, .other), (0x1BC9E, .extend), (0x1BC9F, .other), (0x1BCA3, .control), (0x1D164, .other)]

/-- Part 16 of the runs, up to U+1F1E5. -/
def runs15 : List (Nat × Gcb) :=
  [(0x1D165, .extend), (0x1D166, .spacingMark), (0x1D169, .extend), (0x1D16C, .other), (0x1D16D, .spacingMark),
   (0x1D172, .extend), (0x1D17A, .control), (0x1D182, .extend), (0x1D184, .other), (0x1D18B, .extend),
   (0x1D1A9, .other), (0x1D1AD, .extend), (0x1D241, .other), (0x1D244, .extend), (0x1D9FF, .other),
   (0x1DA36, .extend), (0x1DA3A, .other), (0x1DA6C, .extend), (0x1DA74, .other), (0x1DA75, .extend),
   (0x1DA83, .other), (0x1DA84, .extend), (0x1DA9A, .other), (0x1DA9F, .extend), (0x1DAA0, .other),
   (0x1DAAF, .extend), (0x1DFFF, .other), (0x1E006, .extend), (0x1E007, .other), (0x1E018, .extend),
   (0x1E01A, .other), (0x1E021, .extend), (0x1E022, .other), (0x1E024, .extend), (0x1E025, .other),
   (0x1E02A, .extend), (0x1E12F, .other), (0x1E136, .extend), (0x1E2EB, .other), (0x1E2EF, .extend),
   (0x1E8CF, .other), (0x1E8D6, .extend), (0x1E943, .other), (0x1E94A, .extend), (0x1EFFF, .other),
   (0x1F0FF, .pict), (0x1F10C, .other), (0x1F10F, .pict), (0x1F12E, .other), (0x1F12F, .pict), (0x1F16B, .other),
   (0x1F171, .pict), (0x1F17D, .other), (0x1F17F, .pict), (0x1F18D, .other), (0x1F18E, .pict), (0x1F190, .other),
   (0x1F19A, .pict), (0x1F1AC, .other), (0x1F1E5, .pict)]

/-- Part 17 of the runs, up to U+10FFFF. -/
def runs16 : List (Nat × Gcb) :=
  [(0x1F1FF, .ri), (0x1F200, .other), (0x1F20F, .pict), (0x1F219, .other), (0x1F21A, .pict), (0x1F22E, .other),
   (0x1F22F, .pict), (0x1F231, .other), (0x1F23A, .pict), (0x1F23B, .other), (0x1F23F, .pict), (0x1F248, .other),
   (0x1F3FA, .pict), (0x1F3FF, .extend), (0x1F53D, .pict), (0x1F545, .other), (0x1F64F, .pict), (0x1F67F, .other),
   (0x1F6FF, .pict), (0x1F773, .other), (0x1F77F, .pict), (0x1F7D4, .other), (0x1F7FF, .pict), (0x1F80B, .other),
   (0x1F80F, .pict), (0x1F847, .other), (0x1F84F, .pict), (0x1F859, .other), (0x1F85F, .pict), (0x1F887, .other),
   (0x1F88F, .pict), (0x1F8AD, .other), (0x1F8FF, .pict), (0x1F90B, .other), (0x1F93A, .pict), (0x1F93B, .other),
   (0x1F945, .pict), (0x1F946, .other), (0x1FAFF, .pict), (0x1FBFF, .other), (0x1FFFD, .pict), (0xDFFFF, .other),
   (0xE001F, .control), (0xE007F, .extend), (0xE00FF, .control), (0xE01EF, .extend), (0xE0FFF, .control),
   (0x10FFFF, .other)]

/-- All the runs. -/
def gcbRuns : List (Nat × Gcb) :=
  runs0 ++ runs1 ++ runs2 ++ runs3 ++ runs4 ++ runs5 ++ runs6 ++ runs7 ++ runs8 ++ runs9 ++
  runs10 ++ runs11 ++ runs12 ++ runs13 ++ runs14 ++ runs15 ++ runs16

/-- The value of the run in which `c` lies. -/
def lookup {α : Type} (d : α) : List (Nat × α) → Nat → α
  | [], _ => d
  | (last, v) :: t, c => if c ≤ last then v else lookup d t c

/-- The properties of a code point in Unicode 13.0.0. -/
def gcb (c : Nat) : Gcb :=
  if 0xAC00 ≤ c ∧ c ≤ 0xD7A3 ∧ (c - 0xAC00) % 28 = 0 then .lv else lookup .other gcbRuns c

end Strf.WidthCalc
