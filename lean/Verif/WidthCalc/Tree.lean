import Verif.WidthCalc.Base
/-!
The nested conditionals of include/strf/detail/ch32_width_and_gcb_prop, transcribed by a script: `le n a b` is
`if (ch <= n) a else b`, `eq n a b` is `if (ch == n) a` followed by `b`, `width w t` is `ch_width = w;` followed by `t`,
and `goto l` is `goto handle_l`. The number in a name is the line where the part begins.
-/
namespace Strf.WidthCalc

/-- ch32_width_and_gcb_prop, from line 13; its last condition is in line 96 -/
def tree13 : Tree :=
  .le 0x5FF
    (.le 0x482
      (.le 0x2FF
        (.le 0x9F (.goto .control)
          (.eq 0xA9 (.goto .extendedPicto) <|
          .eq 0xAD (.goto .control) (.eq 0xAE (.goto .extendedPicto) (.goto .other))))
        (.le 0x36F (.goto .extend) (.goto .other)))
      (.le 0x590 (.le 0x489 (.goto .extend) (.goto .other))
        (.le 0x5C7
          (.eq 0x5BE (.goto .other) <|
          .eq 0x5C0 (.goto .other) (.eq 0x5C3 (.goto .other) (.eq 0x5C6 (.goto .other) (.goto .extend))))
          (.goto .other))))
    (.le 0x64A
      (.le 0x60F (.le 0x605 (.goto .prepend) (.goto .other))
        (.le 0x61C (.eq 0x61B (.goto .other) (.eq 0x61C (.goto .control) (.goto .extend))) (.goto .other)))
      (.le 0x6D5 (.le 0x65F (.goto .extend) (.eq 0x670 (.goto .extend) (.goto .other)))
        (.le 0x6E4 (.eq 0x6DD (.goto .prepend) (.eq 0x6DE (.goto .other) (.goto .extend)))
          (.le 0x6E6 (.goto .other) (.eq 0x6E9 (.goto .other) (.goto .extend))))))

/-- ch32_width_and_gcb_prop, from line 152; its last condition is in line 191 -/
def tree152 : Tree :=
  .le 0x93D
    (.le 0x8D2 (.le 0x85B (.goto .extend) (.goto .other))
      (.le 0x903 (.eq 0x8E2 (.goto .prepend) (.eq 0x903 (.goto .spacingMark) (.goto .extend)))
        (.eq 0x93A (.goto .extend) (.eq 0x93B (.goto .spacingMark) (.eq 0x93C (.goto .extend) (.goto .other))))))
    (.le 0x948 (.le 0x940 (.goto .spacingMark) (.goto .extend))
      (.le 0x950 (.eq 0x94D (.goto .extend) (.eq 0x950 (.goto .other) (.goto .spacingMark)))
        (.le 0x957 (.goto .extend) (.goto .other))))

/-- ch32_width_and_gcb_prop, from line 105; its last condition is in line 191 -/
def tree105 : Tree :=
  .le 0x858
    (.le 0x7B0
      (.le 0x74A (.le 0x72F (.eq 0x70F (.goto .prepend) (.eq 0x711 (.goto .extend) (.goto .other))) (.goto .extend))
        (.le 0x7A5 (.goto .other) (.goto .extend)))
      (.le 0x7F3 (.le 0x7EA (.goto .other) (.goto .extend))
        (.le 0x815 (.eq 0x7FD (.goto .extend) (.goto .other))
          (.le 0x82D (.eq 0x81A (.goto .other) (.eq 0x824 (.goto .other) (.eq 0x828 (.goto .other) (.goto .extend))))
            (.goto .other)))))
    tree152

/-- ch32_width_and_gcb_prop, from line 203; its last condition is in line 279 -/
def tree203 : Tree :=
  .le 0x9CA
    (.le 0x9BE
      (.le 0x981 (.le 0x963 (.goto .extend) (.eq 0x981 (.goto .extend) (.goto .other)))
        (.le 0x983 (.goto .spacingMark) (.eq 0x9BC (.goto .extend) (.eq 0x9BE (.goto .extend) (.goto .other)))))
      (.le 0x9C4 (.le 0x9C0 (.goto .spacingMark) (.goto .extend))
        (.le 0x9C6 (.goto .other) (.le 0x9C8 (.goto .spacingMark) (.goto .other)))))
    (.le 0xA00
      (.le 0x9E1 (.le 0x9CD (.eq 0x9CD (.goto .extend) (.goto .spacingMark)) (.eq 0x9D7 (.goto .extend) (.goto .other)))
        (.le 0x9E3 (.goto .extend) (.eq 0x9FE (.goto .extend) (.goto .other))))
      (.le 0xA3D (.le 0xA03 (.eq 0xA03 (.goto .spacingMark) (.goto .extend)) (.eq 0xA3C (.goto .extend) (.goto .other)))
        (.le 0xA40 (.goto .spacingMark) (.le 0xA42 (.goto .extend) (.goto .other)))))

/-- ch32_width_and_gcb_prop, from line 332; its last condition is in line 372 -/
def tree332 : Tree :=
  .le 0xAE3
    (.le 0xACD
      (.le 0xACA (.eq 0xAC6 (.goto .other) (.eq 0xAC9 (.goto .spacingMark) (.eq 0xACA (.goto .other) (.goto .extend))))
        (.eq 0xACD (.goto .extend) (.goto .spacingMark)))
      (.le 0xAE1 (.goto .other) (.goto .extend)))
    (.le 0xB01 (.le 0xAF9 (.goto .other) (.eq 0xB00 (.goto .other) (.goto .extend)))
      (.le 0xB03 (.goto .spacingMark)
        (.le 0xB3D (.eq 0xB3C (.goto .extend) (.goto .other)) (.eq 0xB40 (.goto .spacingMark) (.goto .extend)))))

/-- ch32_width_and_gcb_prop, from line 289; its last condition is in line 372 -/
def tree289 : Tree :=
  .le 0xAC0
    (.le 0xA6F
      (.le 0xA4A (.le 0xA48 (.goto .extend) (.goto .other))
        (.le 0xA4D (.goto .extend) (.eq 0xA51 (.goto .extend) (.goto .other))))
      (.le 0xA80 (.le 0xA71 (.goto .extend) (.eq 0xA75 (.goto .extend) (.goto .other)))
        (.le 0xA83 (.eq 0xA83 (.goto .spacingMark) (.goto .extend))
          (.le 0xABD (.eq 0xABC (.goto .extend) (.goto .other)) (.goto .spacingMark)))))
    tree332

/-- ch32_width_and_gcb_prop, from line 202; its last condition is in line 372 -/
def tree202 : Tree :=
  .le 0xA46 tree203 tree289

/-- ch32_width_and_gcb_prop, from line 430; its last condition is in line 470 -/
def tree430 : Tree :=
  .le 0xC00
    (.le 0xBC5 (.le 0xBC2 (.goto .spacingMark) (.goto .other))
      (.le 0xBCD (.eq 0xBC9 (.goto .other) (.eq 0xBCD (.goto .extend) (.goto .spacingMark)))
        (.eq 0xBD7 (.goto .extend) (.eq 0xC00 (.goto .extend) (.goto .other)))))
    (.le 0xC3D (.le 0xC04 (.eq 0xC04 (.goto .extend) (.goto .spacingMark)) (.goto .other))
      (.le 0xC40 (.goto .extend)
        (.le 0xC45 (.eq 0xC45 (.goto .other) (.goto .spacingMark)) (.eq 0xC49 (.goto .other) (.goto .extend)))))

/-- ch32_width_and_gcb_prop, from line 385; its last condition is in line 470 -/
def tree385 : Tree :=
  .le 0xBC0
    (.le 0xB4D
      (.le 0xB48 (.le 0xB46 (.goto .other) (.goto .spacingMark))
        (.le 0xB4A (.goto .other) (.eq 0xB4D (.goto .extend) (.goto .spacingMark))))
      (.le 0xB57 (.le 0xB54 (.goto .other) (.goto .extend))
        (.le 0xB61 (.goto .other)
          (.le 0xB63 (.goto .extend)
            (.eq 0xB82 (.goto .extend) <|
            .eq 0xBBE (.goto .extend) (.eq 0xBBF (.goto .spacingMark) (.eq 0xBC0 (.goto .extend) (.goto .other))))))))
    tree430

/-- ch32_width_and_gcb_prop, from line 480; its last condition is in line 520 -/
def tree480 : Tree :=
  .le 0xC63 (.le 0xC56 (.le 0xC54 (.goto .other) (.goto .extend)) (.le 0xC61 (.goto .other) (.goto .extend)))
    (.le 0xC83 (.le 0xC81 (.eq 0xC81 (.goto .extend) (.goto .other)) (.goto .spacingMark))
      (.le 0xCBF (.eq 0xCBC (.goto .extend) (.eq 0xCBE (.goto .spacingMark) (.eq 0xCBF (.goto .extend) (.goto .other))))
        (.le 0xCCB
          (.eq 0xCC2 (.goto .extend) <|
          .eq 0xCC5 (.goto .other) (.eq 0xCC6 (.goto .extend) (.eq 0xCC9 (.goto .other) (.goto .spacingMark))))
          (.goto .extend))))

/-- ch32_width_and_gcb_prop, from line 479; its last condition is in line 558 -/
def tree479 : Tree :=
  .le 0xCCD tree480
    (.le 0xCE3 (.le 0xCD6 (.le 0xCD4 (.goto .other) (.goto .extend)) (.le 0xCE1 (.goto .other) (.goto .extend)))
      (.le 0xD01 (.le 0xCFF (.goto .other) (.goto .extend))
        (.le 0xD03 (.goto .spacingMark) (.le 0xD3A (.goto .other) (.eq 0xD3D (.goto .other) (.goto .extend))))))

/-- ch32_width_and_gcb_prop, from line 570; its last condition is in line 610 -/
def tree570 : Tree :=
  .le 0xD61
    (.le 0xD45 (.le 0xD40 (.goto .spacingMark) (.eq 0xD45 (.goto .other) (.goto .extend)))
      (.le 0xD4E (.eq 0xD49 (.goto .other) (.eq 0xD4D (.goto .extend) (.eq 0xD4E (.goto .prepend) (.goto .spacingMark))))
        (.eq 0xD57 (.goto .extend) (.goto .other))))
    (.le 0xD81 (.le 0xD63 (.goto .extend) (.eq 0xD81 (.goto .extend) (.goto .other)))
      (.le 0xD83 (.goto .spacingMark)
        (.le 0xDCF (.eq 0xDCA (.goto .extend) (.eq 0xDCF (.goto .extend) (.goto .other))) (.goto .spacingMark))))

/-- ch32_width_and_gcb_prop, from line 620; its last condition is in line 660 -/
def tree620 : Tree :=
  .le 0xDF3
    (.le 0xDDF
      (.le 0xDD7 (.eq 0xDD5 (.goto .other) (.eq 0xDD7 (.goto .other) (.goto .extend)))
        (.eq 0xDDF (.goto .extend) (.goto .spacingMark)))
      (.le 0xDF1 (.goto .other) (.goto .spacingMark)))
    (.le 0xE3A (.le 0xE33 (.eq 0xE31 (.goto .extend) (.eq 0xE33 (.goto .spacingMark) (.goto .other))) (.goto .extend))
      (.le 0xE46 (.goto .other)
        (.le 0xE4E (.goto .extend) (.eq 0xEB1 (.goto .extend) (.eq 0xEB3 (.goto .spacingMark) (.goto .other))))))

/-- ch32_width_and_gcb_prop, from line 569; its last condition is in line 660 -/
def tree569 : Tree :=
  .le 0xDD1 tree570 tree620

/-- ch32_width_and_gcb_prop, from line 669; its last condition is in line 747 -/
def tree669 : Tree :=
  .le 0xF87
    (.le 0xF17 (.le 0xEC7 (.le 0xEBC (.goto .extend) (.goto .other)) (.le 0xECD (.goto .extend) (.goto .other)))
      (.le 0xF3D
        (.le 0xF19 (.goto .extend)
          (.eq 0xF35 (.goto .extend) (.eq 0xF37 (.goto .extend) (.eq 0xF39 (.goto .extend) (.goto .other)))))
        (.le 0xF3F (.goto .spacingMark)
          (.le 0xF70 (.goto .other) (.eq 0xF7F (.goto .spacingMark) (.eq 0xF85 (.goto .other) (.goto .extend)))))))
    (.le 0x103A
      (.le 0xFBC (.le 0xF8C (.goto .other) (.eq 0xF98 (.goto .other) (.goto .extend)))
        (.le 0x102C (.eq 0xFC6 (.goto .extend) (.goto .other))
          (.eq 0x1031 (.goto .spacingMark) (.eq 0x1038 (.goto .other) (.goto .extend)))))
      (.le 0x103E (.le 0x103C (.goto .spacingMark) (.goto .extend))
        (.le 0x1055 (.goto .other) (.le 0x1057 (.goto .spacingMark) (.goto .extend)))))

/-- ch32_width_and_gcb_prop, from line 763; its last condition is in line 832 -/
def tree763 : Tree :=
  .le 0x11A7
    (.le 0x1074 (.le 0x1060 (.le 0x105D (.goto .other) (.goto .extend)) (.le 0x1070 (.goto .other) (.goto .extend)))
      (.le 0x1086 (.le 0x1084 (.eq 0x1082 (.goto .extend) (.eq 0x1084 (.goto .spacingMark) (.goto .other))) (.goto .extend))
        (.le 0x10FF (.eq 0x108D (.goto .extend) (.eq 0x109D (.goto .extend) (.goto .other)))
          (.le 0x115F (.width 2 (.goto .hangulL)) (.goto .hangulV)))))
    (.le 0x1711 (.le 0x135C (.le 0x11FF (.goto .hangulT) (.goto .other)) (.le 0x135F (.goto .extend) (.goto .other)))
      (.le 0x1731 (.le 0x1714 (.goto .extend) (.goto .other))
        (.le 0x1734 (.goto .extend) (.le 0x1751 (.goto .other) (.goto .extend)))))

/-- ch32_width_and_gcb_prop, from line 842; its last condition is in line 913 -/
def tree842 : Tree :=
  .le 0x1884
    (.le 0x17BD
      (.le 0x1773 (.le 0x1771 (.goto .other) (.goto .extend))
        (.le 0x17B3 (.goto .other) (.eq 0x17B6 (.goto .spacingMark) (.goto .extend))))
      (.le 0x17D3 (.le 0x17C8 (.eq 0x17C6 (.goto .extend) (.goto .spacingMark)) (.goto .extend))
        (.le 0x180A (.eq 0x17DD (.goto .extend) (.goto .other))
          (.le 0x180E (.eq 0x180E (.goto .control) (.goto .extend)) (.goto .other)))))
    (.le 0x1926
      (.le 0x191F (.le 0x1886 (.goto .extend) (.eq 0x18A9 (.goto .extend) (.goto .other)))
        (.le 0x1922 (.goto .extend) (.goto .spacingMark)))
      (.le 0x192B (.le 0x1928 (.goto .extend) (.goto .spacingMark))
        (.le 0x192F (.goto .other) (.le 0x1938 (.eq 0x1932 (.goto .extend) (.goto .spacingMark)) (.goto .extend)))))

/-- ch32_width_and_gcb_prop, from line 762; its last condition is in line 913 -/
def tree762 : Tree :=
  .le 0x1753 tree763 tree842

/-- ch32_width_and_gcb_prop, from line 926; its last condition is in line 1006 -/
def tree926 : Tree :=
  .le 0x1A7C
    (.le 0x1A57
      (.le 0x1A18 (.le 0x1A16 (.goto .other) (.goto .extend))
        (.le 0x1A1B (.eq 0x1A1B (.goto .extend) (.goto .spacingMark))
          (.eq 0x1A55 (.goto .spacingMark) <|
          .eq 0x1A56 (.goto .extend) (.eq 0x1A57 (.goto .spacingMark) (.goto .other)))))
      (.le 0x1A64 (.le 0x1A62 (.eq 0x1A5F (.goto .other) (.eq 0x1A61 (.goto .other) (.goto .extend))) (.goto .other))
        (.le 0x1A6C (.goto .extend) (.le 0x1A72 (.goto .spacingMark) (.goto .extend)))))
    (.le 0x1B04
      (.le 0x1AC0 (.le 0x1AAF (.eq 0x1A7F (.goto .extend) (.goto .other)) (.goto .extend))
        (.le 0x1AFF (.goto .other) (.eq 0x1B04 (.goto .spacingMark) (.goto .extend))))
      (.le 0x1B3C (.le 0x1B33 (.goto .other) (.eq 0x1B3B (.goto .spacingMark) (.goto .extend)))
        (.le 0x1B44 (.eq 0x1B42 (.goto .extend) (.goto .spacingMark)) (.le 0x1B6A (.goto .other) (.goto .extend)))))

/-- ch32_width_and_gcb_prop, from line 1016; its last condition is in line 1093 -/
def tree1016 : Tree :=
  .le 0x1BEE
    (.le 0x1BA5
      (.le 0x1B82 (.le 0x1B7F (.goto .other) (.eq 0x1B82 (.goto .spacingMark) (.goto .extend)))
        (.le 0x1BA1 (.eq 0x1BA1 (.goto .spacingMark) (.goto .other)) (.goto .extend)))
      (.le 0x1BAD (.le 0x1BA7 (.goto .spacingMark) (.eq 0x1BAA (.goto .spacingMark) (.goto .extend)))
        (.le 0x1BE7 (.eq 0x1BE6 (.goto .extend) (.eq 0x1BE7 (.goto .spacingMark) (.goto .other)))
          (.le 0x1BE9 (.goto .extend) (.eq 0x1BED (.goto .extend) (.goto .spacingMark))))))
    (.le 0x1C2B
      (.le 0x1BF3 (.le 0x1BF1 (.goto .extend) (.goto .spacingMark))
        (.le 0x1C23 (.goto .other) (.goto .spacingMark)))
      (.le 0x1C35 (.le 0x1C33 (.goto .extend) (.goto .spacingMark))
        (.le 0x1C37 (.goto .extend)
          (.le 0x1CCF (.goto .other) (.eq 0x1CD3 (.goto .other) (.eq 0x1CE1 (.goto .spacingMark) (.goto .extend)))))))

/-- ch32_width_and_gcb_prop, from line 925; its last condition is in line 1093 -/
def tree925 : Tree :=
  .le 0x1B73 tree926 tree1016

/-- ch32_width_and_gcb_prop, from line 1107; its last condition is in line 1151 -/
def tree1107 : Tree :=
  .le 0x1DFF
    (.le 0x1CF9
      (.le 0x1CF7 (.eq 0x1CED (.goto .extend) (.eq 0x1CF4 (.goto .extend) (.eq 0x1CF7 (.goto .spacingMark) (.goto .other))))
        (.goto .extend))
      (.le 0x1DBF (.goto .other) (.eq 0x1DFA (.goto .other) (.goto .extend))))
    (.le 0x200F
      (.le 0x200D (.eq 0x200B (.goto .control) (.eq 0x200C (.goto .extend) (.eq 0x200D (.goto .zwj) (.goto .other))))
        (.goto .control))
      (.le 0x2027 (.goto .other)
        (.le 0x202E (.goto .control)
          (.eq 0x203C (.goto .extendedPicto) (.eq 0x2049 (.goto .extendedPicto) (.goto .other))))))

/-- ch32_width_and_gcb_prop, from line 1106; its last condition is in line 1188 -/
def tree1106 : Tree :=
  .le 0x205F tree1107
    (.le 0x2193
      (.le 0x20CF (.le 0x206F (.goto .control) (.goto .other))
        (.le 0x20F0 (.goto .extend)
          (.eq 0x2122 (.goto .extendedPicto) (.eq 0x2139 (.goto .extendedPicto) (.goto .other)))))
      (.le 0x21A8 (.le 0x2199 (.goto .extendedPicto) (.goto .other))
        (.le 0x21AA (.goto .extendedPicto) (.le 0x2319 (.goto .other) (.goto .extendedPicto)))))

/-- ch32_width_and_gcb_prop, from line 1199; its last condition is in line 1238 -/
def tree1199 : Tree :=
  .le 0x23F3
    (.le 0x232A (.le 0x2328 (.eq 0x2328 (.goto .extendedPicto) (.goto .other)) (.width 2 (.goto .other)))
      (.le 0x23E8 (.eq 0x2388 (.goto .extendedPicto) (.eq 0x23CF (.goto .extendedPicto) (.goto .other)))
        (.goto .extendedPicto)))
    (.le 0x23FA (.le 0x23F7 (.goto .other) (.goto .extendedPicto))
      (.le 0x25A9 (.eq 0x24C2 (.goto .extendedPicto) (.goto .other))
        (.le 0x25AB (.goto .extendedPicto)
          (.eq 0x25B6 (.goto .extendedPicto) (.eq 0x25C0 (.goto .extendedPicto) (.goto .other))))))

/-- ch32_width_and_gcb_prop, from line 1246; its last condition is in line 1298 -/
def tree1246 : Tree :=
  .le 0x2707
    (.le 0x268F
      (.le 0x2685 (.eq 0x25FF (.goto .other) (.eq 0x2606 (.goto .other) (.eq 0x2613 (.goto .other) (.goto .extendedPicto))))
        (.goto .other))
      (.le 0x2705 (.goto .extendedPicto) (.goto .other)))
    (.le 0x2732
      (.le 0x2716 (.eq 0x2713 (.goto .other) (.eq 0x2715 (.goto .other) (.goto .extendedPicto)))
        (.eq 0x271D (.goto .extendedPicto) <|
        .eq 0x2721 (.goto .extendedPicto) (.eq 0x2728 (.goto .extendedPicto) (.goto .other))))
      (.le 0x2734 (.goto .extendedPicto)
        (.le 0x2752
          (.eq 0x2744 (.goto .extendedPicto) <|
          .eq 0x2747 (.goto .extendedPicto) <|
          .eq 0x274C (.goto .extendedPicto) (.eq 0x274E (.goto .extendedPicto) (.goto .other)))
          (.eq 0x2756 (.goto .other) (.goto .extendedPicto)))))

/-- ch32_width_and_gcb_prop, from line 1198; its last condition is in line 1298 -/
def tree1198 : Tree :=
  .le 0x25FA tree1199 tree1246

/-- ch32_width_and_gcb_prop, from line 1350; its last condition is in line 1390 -/
def tree1350 : Tree :=
  .le 0x2DDF
    (.le 0x2CEE
      (.le 0x2B1C (.goto .extendedPicto)
        (.eq 0x2B50 (.goto .extendedPicto) (.eq 0x2B55 (.goto .extendedPicto) (.goto .other))))
      (.le 0x2CF1 (.goto .extend) (.eq 0x2D7F (.goto .extend) (.goto .other))))
    (.le 0x2E7F (.le 0x2DFF (.goto .extend) (.goto .other))
      (.width 2 (
        .le 0x3029 (.goto .other)
          (.le 0x3030 (.eq 0x3030 (.goto .extendedPicto) (.goto .extend))
            (.eq 0x303D (.goto .extendedPicto) (.eq 0x303F (.width 1 (.goto .other)) (.goto .other)))))))

/-- ch32_width_and_gcb_prop, from line 1309; its last condition is in line 1390 -/
def tree1309 : Tree :=
  .le 0x2B1A
    (.le 0x2797
      (.le 0x2767 (.le 0x2762 (.goto .other) (.goto .extendedPicto))
        (.le 0x2794 (.goto .other) (.goto .extendedPicto)))
      (.le 0x2935
        (.le 0x2933
          (.eq 0x27A1 (.goto .extendedPicto) <|
          .eq 0x27B0 (.goto .extendedPicto) (.eq 0x27BF (.goto .extendedPicto) (.goto .other)))
          (.goto .extendedPicto))
        (.le 0x2B04 (.goto .other) (.le 0x2B07 (.goto .extendedPicto) (.goto .other)))))
    tree1350

/-- ch32_width_and_gcb_prop, from line 1401; its last condition is in line 1440 -/
def tree1401 : Tree :=
  .le 0xA67D
    (.le 0xA4CF (.width 2 (.le 0x309A (.goto .extend) (.eq 0x3297 (.goto .extendedPicto) (.eq 0x3299 (.goto .extendedPicto) (.goto .other)))))
      (.le 0xA66E (.goto .other) (.eq 0xA673 (.goto .other) (.goto .extend))))
    (.le 0xA69F (.le 0xA69D (.goto .other) (.goto .extend))
      (.le 0xA6EF (.goto .other)
        (.le 0xA6F1 (.goto .extend)
          (.eq 0xA802 (.goto .extend) (.eq 0xA806 (.goto .extend) (.eq 0xA80B (.goto .extend) (.goto .other)))))))

/-- ch32_width_and_gcb_prop, from line 1400; its last condition is in line 1477 -/
def tree1400 : Tree :=
  .le 0xA822 tree1401
    (.le 0xA881
      (.le 0xA827 (.le 0xA824 (.goto .spacingMark) (.eq 0xA827 (.goto .spacingMark) (.goto .extend)))
        (.le 0xA87F (.eq 0xA82C (.goto .extend) (.goto .other)) (.goto .spacingMark)))
      (.le 0xA8C3 (.le 0xA8B3 (.goto .other) (.goto .spacingMark))
        (.le 0xA8C5 (.goto .extend) (.le 0xA8DF (.goto .other) (.goto .extend)))))

/-- ch32_width_and_gcb_prop, from line 1308; its last condition is in line 1477 -/
def tree1308 : Tree :=
  .le 0x3098 tree1309 tree1400

/-- ch32_width_and_gcb_prop, from line 1495; its last condition is in line 1558 -/
def tree1495 : Tree :=
  .le 0xA97F
    (.le 0xA951
      (.le 0xA92D (.le 0xA925 (.eq 0xA8FF (.goto .extend) (.goto .other)) (.goto .extend))
        (.le 0xA946 (.goto .other) (.goto .extend)))
      (.le 0xA95F (.le 0xA953 (.goto .spacingMark) (.goto .other)) (.le 0xA97C (.goto .hangulL) (.goto .other))))
    (.le 0xA9B9
      (.le 0xA9B3 (.le 0xA983 (.eq 0xA983 (.goto .spacingMark) (.goto .extend)) (.eq 0xA9B3 (.goto .extend) (.goto .other)))
        (.le 0xA9B5 (.goto .spacingMark) (.goto .extend)))
      (.le 0xA9BD (.le 0xA9BB (.goto .spacingMark) (.goto .extend))
        (.le 0xA9C0 (.goto .spacingMark) (.le 0xAA28 (.eq 0xA9E5 (.goto .extend) (.goto .other)) (.goto .extend)))))

/-- ch32_width_and_gcb_prop, from line 1614; its last condition is in line 1655 -/
def tree1614 : Tree :=
  .le 0xAAEF
    (.le 0xAAEB (.le 0xAAC1 (.eq 0xAAC0 (.goto .other) (.goto .extend)) (.eq 0xAAEB (.goto .spacingMark) (.goto .other)))
      (.le 0xAAED (.goto .extend) (.goto .spacingMark)))
    (.le 0xABED
      (.le 0xABE2 (.eq 0xAAF5 (.goto .spacingMark) (.eq 0xAAF6 (.goto .extend) (.goto .other)))
        (.eq 0xABE5 (.goto .extend) <|
        .eq 0xABE8 (.goto .extend) (.eq 0xABEB (.goto .other) (.eq 0xABED (.goto .extend) (.goto .spacingMark)))))
      (.le 0xABFF (.goto .other) (.le 0xD7A3 (.width 2 (.goto .hangulLvOrLvt)) (.goto .other))))

/-- ch32_width_and_gcb_prop, from line 1569; its last condition is in line 1655 -/
def tree1569 : Tree :=
  .le 0xAABD
    (.le 0xAA36
      (.le 0xAA32 (.le 0xAA30 (.goto .spacingMark) (.goto .extend))
        (.le 0xAA34 (.goto .spacingMark) (.goto .extend)))
      (.le 0xAAB4
        (.le 0xAAB1
          (.eq 0xAA43 (.goto .extend) <|
          .eq 0xAA4C (.goto .extend) <|
          .eq 0xAA4D (.goto .spacingMark) (.eq 0xAA7C (.goto .extend) (.eq 0xAAB0 (.goto .extend) (.goto .other))))
          (.goto .extend))
        (.le 0xAAB6 (.goto .other) (.le 0xAAB8 (.goto .extend) (.goto .other)))))
    tree1614

/-- ch32_width_and_gcb_prop, from line 1494; its last condition is in line 1655 -/
def tree1494 : Tree :=
  .le 0xAA2E tree1495 tree1569

/-- ch32_width_and_gcb_prop, from line 1668; its last condition is in line 1736 -/
def tree1668 : Tree :=
  .le 0xFE1F
    (.le 0xF8FF (.le 0xD7CA (.le 0xD7C6 (.goto .hangulV) (.goto .other)) (.le 0xD7FB (.goto .hangulT) (.goto .other)))
      (.le 0xFDFF (.le 0xFAFF (.width 2 (.goto .other)) (.eq 0xFB1E (.goto .extend) (.goto .other)))
        (.le 0xFE0F (.goto .extend) (.le 0xFE19 (.width 2 (.goto .other)) (.goto .other)))))
    (.le 0xFF60
      (.le 0xFE6F (.le 0xFE2F (.goto .extend) (.width 2 (.goto .other)))
        (.le 0xFEFF (.eq 0xFEFF (.goto .control) (.goto .other)) (.width 2 (.goto .other))))
      (.le 0xFF9F (.le 0xFF9D (.goto .other) (.goto .extend))
        (.le 0xFFDF (.goto .other) (.le 0xFFE6 (.width 2 (.goto .other)) (.goto .other)))))

/-- ch32_width_and_gcb_prop, from line 1747; its last condition is in line 1822 -/
def tree1747 : Tree :=
  .le 0x10A3A
    (.le 0x10A00
      (.le 0x10375 (.le 0xFFFB (.goto .control) (.eq 0x101FD (.goto .extend) (.eq 0x102E0 (.goto .extend) (.goto .other))))
        (.le 0x1037A (.goto .extend) (.goto .other)))
      (.le 0x10A0B (.le 0x10A06 (.eq 0x10A04 (.goto .other) (.goto .extend)) (.goto .other))
        (.le 0x10A0F (.goto .extend) (.le 0x10A37 (.goto .other) (.goto .extend)))))
    (.le 0x10D27
      (.le 0x10AE6 (.le 0x10AE4 (.eq 0x10A3F (.goto .extend) (.goto .other)) (.goto .extend))
        (.le 0x10D23 (.goto .other) (.goto .extend)))
      (.le 0x10EAC (.le 0x10EAA (.goto .other) (.goto .extend))
        (.le 0x10F45 (.goto .other)
          (.le 0x10F50 (.goto .extend)
            (.eq 0x11000 (.goto .spacingMark) <|
            .eq 0x11001 (.goto .extend) (.eq 0x11002 (.goto .spacingMark) (.goto .other)))))))

/-- ch32_width_and_gcb_prop, from line 1667; its last condition is in line 1822 -/
def tree1667 : Tree :=
  .le 0xFFEF tree1668 tree1747

/-- ch32_width_and_gcb_prop, from line 1835; its last condition is in line 1907 -/
def tree1835 : Tree :=
  .le 0x110FF
    (.le 0x110AF
      (.le 0x1107E (.le 0x11046 (.goto .extend) (.goto .other))
        (.le 0x11082 (.eq 0x11082 (.goto .spacingMark) (.goto .extend)) (.goto .other)))
      (.le 0x110B6 (.le 0x110B2 (.goto .spacingMark) (.goto .extend))
        (.le 0x110B8 (.goto .spacingMark)
          (.le 0x110BA (.goto .extend) (.eq 0x110BD (.goto .prepend) (.eq 0x110CD (.goto .prepend) (.goto .other)))))))
    (.le 0x11144
      (.le 0x11126 (.le 0x11102 (.goto .extend) (.goto .other))
        (.le 0x11134 (.eq 0x1112C (.goto .spacingMark) (.goto .extend)) (.goto .other)))
      (.le 0x1117F (.le 0x11146 (.goto .spacingMark) (.eq 0x11173 (.goto .extend) (.goto .other)))
        (.le 0x11182 (.eq 0x11182 (.goto .spacingMark) (.goto .extend))
          (.le 0x111B2 (.goto .other) (.goto .spacingMark)))))

/-- ch32_width_and_gcb_prop, from line 1917; its last condition is in line 1994 -/
def tree1917 : Tree :=
  .le 0x11235
    (.le 0x111C8
      (.le 0x111C1 (.le 0x111BE (.goto .extend) (.eq 0x111C1 (.goto .other) (.goto .spacingMark)))
        (.le 0x111C3 (.goto .prepend) (.goto .other)))
      (.le 0x1122B (.le 0x111CF (.eq 0x111CD (.goto .other) (.eq 0x111CE (.goto .spacingMark) (.goto .extend))) (.goto .other))
        (.le 0x1122E (.goto .spacingMark)
          (.le 0x11231 (.goto .extend) (.eq 0x11234 (.goto .extend) (.goto .spacingMark))))))
    (.le 0x112EA
      (.le 0x112DF (.le 0x11237 (.goto .extend) (.eq 0x1123E (.goto .extend) (.eq 0x112DF (.goto .extend) (.goto .other))))
        (.le 0x112E2 (.goto .spacingMark) (.goto .extend)))
      (.le 0x11301 (.le 0x112FF (.goto .other) (.goto .extend))
        (.le 0x11303 (.goto .spacingMark)
          (.le 0x1133A (.goto .other)
            (.eq 0x1133D (.goto .other) (.eq 0x1133F (.goto .spacingMark) (.goto .extend)))))))

/-- ch32_width_and_gcb_prop, from line 1834; its last condition is in line 1994 -/
def tree1834 : Tree :=
  .le 0x111B5 tree1835 tree1917

/-- ch32_width_and_gcb_prop, from line 2005; its last condition is in line 2072 -/
def tree2005 : Tree :=
  .le 0x1136C
    (.le 0x1134A
      (.le 0x11346 (.le 0x11344 (.goto .spacingMark) (.goto .other))
        (.le 0x11348 (.goto .spacingMark) (.goto .other)))
      (.le 0x11361 (.le 0x1134D (.goto .spacingMark) (.eq 0x11357 (.goto .extend) (.goto .other)))
        (.le 0x11363 (.goto .spacingMark) (.le 0x11365 (.goto .other) (.goto .extend)))))
    (.le 0x11437 (.le 0x11374 (.le 0x1136F (.goto .other) (.goto .extend)) (.le 0x11434 (.goto .other) (.goto .spacingMark)))
      (.le 0x11441 (.le 0x1143F (.goto .extend) (.goto .spacingMark))
        (.le 0x11446 (.eq 0x11445 (.goto .spacingMark) (.goto .extend))
          (.le 0x114B0 (.eq 0x1145E (.goto .extend) (.eq 0x114B0 (.goto .extend) (.goto .other)))
            (.goto .spacingMark)))))

/-- ch32_width_and_gcb_prop, from line 2083; its last condition is in line 2160 -/
def tree2083 : Tree :=
  .le 0x115C0
    (.le 0x115AF
      (.le 0x114BE
        (.le 0x114BA (.eq 0x114B9 (.goto .spacingMark) (.goto .extend))
          (.eq 0x114BD (.goto .extend) (.goto .spacingMark)))
        (.le 0x114C3 (.eq 0x114C1 (.goto .spacingMark) (.goto .extend))
          (.eq 0x115AF (.goto .extend) (.goto .other))))
      (.le 0x115B5 (.le 0x115B1 (.goto .spacingMark) (.goto .extend))
        (.le 0x115B7 (.goto .other)
          (.le 0x115BB (.goto .spacingMark) (.eq 0x115BE (.goto .spacingMark) (.goto .extend))))))
    (.le 0x11632 (.le 0x115DD (.le 0x115DB (.goto .other) (.goto .extend)) (.le 0x1162F (.goto .other) (.goto .spacingMark)))
      (.le 0x1163E (.le 0x1163A (.goto .extend) (.eq 0x1163D (.goto .extend) (.goto .spacingMark)))
        (.le 0x11640 (.goto .extend)
          (.le 0x116AD
            (.eq 0x116AB (.goto .extend) <|
            .eq 0x116AC (.goto .spacingMark) (.eq 0x116AD (.goto .extend) (.goto .other)))
            (.goto .spacingMark)))))

/-- ch32_width_and_gcb_prop, from line 2004; its last condition is in line 2160 -/
def tree2004 : Tree :=
  .le 0x114B2 tree2005 tree2083

/-- ch32_width_and_gcb_prop, from line 2220; its last condition is in line 2260 -/
def tree2220 : Tree :=
  .le 0x119D0
    (.le 0x1193A (.le 0x11938 (.eq 0x11936 (.goto .other) (.goto .spacingMark)) (.goto .other))
      (.le 0x11943
        (.eq 0x1193D (.goto .spacingMark) <|
        .eq 0x1193F (.goto .prepend) <|
        .eq 0x11940 (.goto .spacingMark) <|
        .eq 0x11941 (.goto .prepend) (.eq 0x11942 (.goto .spacingMark) (.goto .extend)))
        (.goto .other)))
    (.le 0x119D7 (.le 0x119D3 (.goto .spacingMark) (.goto .extend))
      (.le 0x119D9 (.goto .other) (.le 0x119DB (.goto .extend) (.eq 0x119E0 (.goto .extend) (.goto .spacingMark)))))

/-- ch32_width_and_gcb_prop, from line 2177; its last condition is in line 2260 -/
def tree2177 : Tree :=
  .le 0x11930
    (.le 0x11721
      (.le 0x1171C (.le 0x116B7 (.eq 0x116B6 (.goto .spacingMark) (.goto .extend)) (.goto .other))
        (.le 0x1171F (.goto .extend) (.goto .other)))
      (.le 0x1182B (.le 0x1172B (.eq 0x11726 (.goto .spacingMark) (.goto .extend)) (.goto .other))
        (.le 0x1182E (.goto .spacingMark)
          (.le 0x1183A (.eq 0x11838 (.goto .spacingMark) (.goto .extend))
            (.eq 0x11930 (.goto .extend) (.goto .other))))))
    tree2220

/-- ch32_width_and_gcb_prop, from line 2312; its last condition is in line 2356 -/
def tree2312 : Tree :=
  .le 0x11C3F
    (.le 0x11A99 (.le 0x11A89 (.goto .prepend) (.eq 0x11A97 (.goto .spacingMark) (.goto .extend)))
      (.le 0x11C2F (.eq 0x11C2F (.goto .spacingMark) (.goto .other))
        (.eq 0x11C37 (.goto .other) (.eq 0x11C3E (.goto .spacingMark) (.goto .extend)))))
    (.le 0x11CB6
      (.le 0x11C91 (.goto .other)
        (.eq 0x11CA8 (.goto .other) <|
        .eq 0x11CA9 (.goto .spacingMark) <|
        .eq 0x11CB1 (.goto .spacingMark) (.eq 0x11CB4 (.goto .spacingMark) (.goto .extend))))
      (.le 0x11D30 (.goto .other) (.le 0x11D36 (.goto .extend) (.eq 0x11D3A (.goto .extend) (.goto .other)))))

/-- ch32_width_and_gcb_prop, from line 2269; its last condition is in line 2356 -/
def tree2269 : Tree :=
  .le 0x11A83
    (.le 0x11A3E
      (.le 0x11A0A (.le 0x11A00 (.eq 0x119E4 (.goto .spacingMark) (.goto .other)) (.goto .extend))
        (.le 0x11A32 (.goto .other)
          (.eq 0x11A39 (.goto .spacingMark) (.eq 0x11A3A (.goto .prepend) (.goto .extend)))))
      (.le 0x11A56 (.le 0x11A50 (.eq 0x11A47 (.goto .extend) (.goto .other)) (.goto .extend))
        (.le 0x11A58 (.goto .spacingMark) (.le 0x11A5B (.goto .extend) (.goto .other)))))
    tree2312

/-- ch32_width_and_gcb_prop, from line 2367; its last condition is in line 2441 -/
def tree2367 : Tree :=
  .le 0x1342F
    (.le 0x11D92
      (.le 0x11D89 (.le 0x11D47 (.eq 0x11D3E (.goto .other) (.eq 0x11D46 (.goto .prepend) (.goto .extend))) (.goto .other))
        (.le 0x11D8F (.eq 0x11D8F (.goto .other) (.goto .spacingMark)) (.eq 0x11D92 (.goto .other) (.goto .extend))))
      (.le 0x11EF2
        (.le 0x11D97 (.eq 0x11D95 (.goto .extend) (.eq 0x11D97 (.goto .extend) (.goto .spacingMark)))
          (.goto .other))
        (.le 0x11EF4 (.goto .extend) (.le 0x11EF6 (.goto .spacingMark) (.goto .other)))))
    (.le 0x16B2F (.le 0x16AEF (.le 0x13438 (.goto .control) (.goto .other)) (.le 0x16AF4 (.goto .extend) (.goto .other)))
      (.le 0x16F50 (.le 0x16B36 (.goto .extend) (.eq 0x16F4F (.goto .extend) (.goto .other)))
        (.le 0x16F87 (.goto .spacingMark) (.le 0x16F8E (.goto .other) (.goto .extend)))))

/-- ch32_width_and_gcb_prop, from line 2451; its last condition is in line 2521 -/
def tree2451 : Tree :=
  .le 0x1D172
    (.le 0x1BC9F
      (.le 0x16FF1 (.le 0x16FEF (.eq 0x16FE4 (.goto .extend) (.goto .other)) (.goto .spacingMark))
        (.le 0x1BC9C (.goto .other) (.eq 0x1BC9F (.goto .other) (.goto .extend))))
      (.le 0x1D166
        (.le 0x1BCA3 (.goto .control)
          (.eq 0x1D165 (.goto .extend) (.eq 0x1D166 (.goto .spacingMark) (.goto .other))))
        (.le 0x1D169 (.goto .extend)
          (.le 0x1D16D (.eq 0x1D16D (.goto .spacingMark) (.goto .other)) (.goto .extend)))))
    (.le 0x1D18B (.le 0x1D182 (.le 0x1D17A (.goto .control) (.goto .extend)) (.le 0x1D184 (.goto .other) (.goto .extend)))
      (.le 0x1D1AD (.le 0x1D1A9 (.goto .other) (.goto .extend))
        (.le 0x1D241 (.goto .other) (.le 0x1D244 (.goto .extend) (.goto .other)))))

/-- ch32_width_and_gcb_prop, from line 2366; its last condition is in line 2521 -/
def tree2366 : Tree :=
  .le 0x16F92 tree2367 tree2451

/-- ch32_width_and_gcb_prop, from line 2535; its last condition is in line 2607 -/
def tree2535 : Tree :=
  .le 0x1E02A
    (.le 0x1DA9A
      (.le 0x1DA3A (.le 0x1DA36 (.goto .extend) (.goto .other))
        (.le 0x1DA6C (.goto .extend) (.eq 0x1DA75 (.goto .extend) (.eq 0x1DA84 (.goto .extend) (.goto .other)))))
      (.le 0x1DFFF (.le 0x1DAAF (.eq 0x1DAA0 (.goto .other) (.goto .extend)) (.goto .other))
        (.le 0x1E018 (.eq 0x1E007 (.goto .other) (.goto .extend))
          (.le 0x1E01A (.goto .other) (.eq 0x1E022 (.goto .other) (.eq 0x1E025 (.goto .other) (.goto .extend)))))))
    (.le 0x1E2EF (.le 0x1E136 (.le 0x1E12F (.goto .other) (.goto .extend)) (.le 0x1E2EB (.goto .other) (.goto .extend)))
      (.le 0x1E8D6 (.le 0x1E8CF (.goto .other) (.goto .extend))
        (.le 0x1E943 (.goto .other) (.le 0x1E94A (.goto .extend) (.goto .other)))))

/-- ch32_width_and_gcb_prop, from line 2617; its last condition is in line 2687 -/
def tree2617 : Tree :=
  .le 0x1F19A
    (.le 0x1F16B
      (.le 0x1F10C (.le 0x1F0FF (.goto .extendedPicto) (.goto .other))
        (.le 0x1F10F (.goto .extendedPicto) (.eq 0x1F12F (.goto .extendedPicto) (.goto .other))))
      (.le 0x1F17D (.le 0x1F171 (.goto .extendedPicto) (.goto .other))
        (.le 0x1F17F (.goto .extendedPicto)
          (.le 0x1F190 (.eq 0x1F18E (.goto .extendedPicto) (.goto .other)) (.goto .extendedPicto)))))
    (.le 0x1F20F
      (.le 0x1F1E5 (.le 0x1F1AC (.goto .other) (.goto .extendedPicto))
        (.le 0x1F1FF (.goto .regionalIndicator) (.eq 0x1F200 (.goto .other) (.goto .extendedPicto))))
      (.le 0x1F23F
        (.le 0x1F231 (.eq 0x1F21A (.goto .extendedPicto) (.eq 0x1F22F (.goto .extendedPicto) (.goto .other)))
          (.eq 0x1F23B (.goto .other) (.goto .extendedPicto)))
        (.le 0x1F248 (.goto .other) (.le 0x1F2FF (.goto .extendedPicto) (.width 2 (.goto .extendedPicto))))))

/-- ch32_width_and_gcb_prop, from line 2534; its last condition is in line 2687 -/
def tree2534 : Tree :=
  .le 0x1EFFF tree2535 tree2617

/-- ch32_width_and_gcb_prop, from line 2700; its last condition is in line 2761 -/
def tree2700 : Tree :=
  .le 0x1F7D4
    (.le 0x1F64F
      (.width 2 (
        .le 0x1F53D (.le 0x1F3FF (.goto .extend) (.goto .extendedPicto))
          (.le 0x1F545 (.goto .other) (.goto .extendedPicto))))
      (.le 0x1F6FF (.le 0x1F67F (.goto .other) (.goto .extendedPicto))
        (.le 0x1F773 (.goto .other) (.le 0x1F77F (.goto .extendedPicto) (.goto .other)))))
    (.le 0x1F847
      (.le 0x1F80B (.le 0x1F7FF (.goto .extendedPicto) (.goto .other))
        (.le 0x1F80F (.goto .extendedPicto) (.goto .other)))
      (.le 0x1F859 (.le 0x1F84F (.goto .extendedPicto) (.goto .other))
        (.le 0x1F85F (.goto .extendedPicto) (.le 0x1F887 (.goto .other) (.goto .extendedPicto)))))

/-- ch32_width_and_gcb_prop, from line 2771; its last condition is in line 2838 -/
def tree2771 : Tree :=
  .le 0x2FFFD
    (.le 0x1F9FF
      (.le 0x1F8FF (.le 0x1F8AD (.goto .other) (.goto .extendedPicto))
        (.width 2 (.le 0x1F90B (.goto .other) (.eq 0x1F93B (.goto .other) (.eq 0x1F946 (.goto .other) (.goto .extendedPicto))))))
      (.le 0x1FBFF (.le 0x1FAFF (.goto .extendedPicto) (.goto .other))
        (.le 0x1FFFD (.goto .extendedPicto) (.le 0x1FFFF (.goto .other) (.width 2 (.goto .other))))))
    (.le 0xE001F
      (.le 0x3FFFD (.le 0x2FFFF (.goto .other) (.width 2 (.goto .other)))
        (.le 0xDFFFF (.goto .other) (.goto .control)))
      (.le 0xE00FF (.le 0xE007F (.goto .extendAndControl) (.goto .control))
        (.le 0xE01EF (.goto .extend) (.le 0xE0FFF (.goto .control) (.goto .other)))))

/-- ch32_width_and_gcb_prop, from line 2699; its last condition is in line 2838 -/
def tree2699 : Tree :=
  .le 0x1F88F tree2700 tree2771

/-- ch32_width_and_gcb_prop, all of it -/
def gcbTree : Tree :=
  .le 0xA8F1
    (.le 0x1059
      (.le 0xB44 (.le 0x961 (.le 0x6ED tree13 tree105) tree202)
        (.le 0xD3E (.le 0xC4D tree385 tree479) (.le 0xEB3 tree569 tree669)))
      (.le 0x1CE8 (.le 0x193B tree762 tree925) (.le 0x2757 (.le 0x231B tree1106 tree1198) tree1308)))
    (.le 0x116AF (.le 0x11037 (.le 0xD7AF tree1494 tree1667) (.le 0x11340 tree1834 tree2004))
      (.le 0x1D9FF (.le 0x11D3B (.le 0x119E0 tree2177 tree2269) tree2366) (.le 0x1F3FA tree2534 tree2699)))

end Strf.WidthCalc
