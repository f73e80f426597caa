#!/usr/bin/env python3
"""Compares the tables in the model with those in the source: run it as `python3 tools/check_tables.py /repo`.
It reads text only."""
import re, sys, os
repo = sys.argv[1] if len(sys.argv) > 1 else '/repo'
here = os.path.join(os.path.dirname(os.path.abspath(__file__)), '..', 'lean', 'Verif')
rd = lambda p: open(p, encoding='utf-8').read()
HEX = r"0[xX][0-9A-Fa-f']+"
nums = lambda t: [int(x.replace("'", ''), 16) for x in re.findall(HEX, t)]
strip = lambda t: re.sub(r'//[^\n]*|/\*.*?\*/', '', t, flags=re.S)
ok = True
def report(what, good):
    global ok
    ok = ok and good
    print(('same   ' if good else 'DIFFERS'), what)

# dragonbox.hpp: the two caches
src = strip(rd(repo + '/include/strf/detail/dragonbox.hpp'))
lean = rd(here + '/Dragonbox/Tables.lean')
bodies = [nums(m.group(1)) for m in re.finditer(r'table\[\] = \{(.*?)\}\s*;', src, re.S)]
bodies = [b for b in bodies if len(b) > 50]
def leanlist(t, name):
    m = re.search(r'def %s\b[^\n]*:=(.*?)(?=\n\n|\Z)' % name, t, re.S)
    return nums(m.group(1))
report('dragonbox float cache', leanlist(lean, 'cacheFloat') in bodies)
report('dragonbox double cache', leanlist(lean, 'cacheDouble') in bodies)

# single_byte_charsets.hpp: per charset, the numbers of `ext` and `char_map`
full = rd(repo + '/include/strf/detail/single_byte_charsets.hpp')
tabs = rd(here + '/Sbc/Tables.lean')
lean_seqs = [nums(b) for b in re.findall(r':=\s*\[(.*?)\]', tabs, re.S)]
parts = re.split(r'\n(?=(?:struct|class) impl_\w+)', full)
n = 0
for p in parts[1:]:
    name = re.match(r'(?:struct|class) impl_(\w+)', p).group(1)
    ext = re.search(r'ext\[\]\s*=\s*\{(.*?)\}\s*;', p, re.S)
    cm = re.search(r'char_map\[\]\s*=\s*\{(.*?)\}\s*\}?\s*;', p, re.S)
    if ext:
        b = strip(ext.group(1))
        e = [0xFFFD if 'undef' in x else int(x, 16) for x in b.replace('\n', ' ').split(',') if x.strip()]
        report('%s ext (%d)' % (name, len(e)), e in lean_seqs); n += 1
    if cm:
        t = re.sub(r"(?:static_cast<\w+>\()?'\?'\)?", '0x3F', strip(cm.group(0)))
        c = nums(t)
        report('%s char_map (%d)' % (name, len(c) // 2), c in lean_seqs); n += 1

# ch32_width_and_gcb_prop: the numbers of the conditions, in order
t = strip(rd(repo + '/include/strf/detail/ch32_width_and_gcb_prop'))
cpp = nums(t)
tree = rd(here + '/WidthCalc/Tree.lean')
tree = re.sub(r'/-.*?-/', '', tree, flags=re.S)
report('ch32_width_and_gcb_prop (%d numbers)' % len(cpp), sorted(cpp) == sorted(nums(tree)))
# numpunct.hpp: the predefined facets
sys.path.insert(0, os.path.dirname(os.path.abspath(__file__)))
sys.dont_write_bytecode = True
import gen_numpunct
report('predefined numpunct facets (%d)' % len(list(gen_numpunct.entries())), gen_numpunct.render() == rd(here + '/Punct/Table.lean'))
print(n, 'charset tables')
sys.exit(0 if ok else 1)
