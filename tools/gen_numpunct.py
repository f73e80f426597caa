#!/usr/bin/env python3
"""Writes lean/Verif/Punct/Table.lean from include/strf/detail/facets/numpunct.hpp: `python3 tools/gen_numpunct.py /repo`. Reads text only."""
import re, sys, os
repo = sys.argv[1] if len(sys.argv) > 1 else '/repo'
src = open(repo + '/include/strf/detail/facets/numpunct.hpp', encoding='utf-8').read()
def ch(s):
    s = s.strip()
    if s.lower().startswith('0x'): return int(s, 16)
    m = re.fullmatch(r"U'(\\?)(.)'", s)
    return ord(m.group(2))
def entries():
    for l in src.split('\n'):
        m = re.match(r'constexpr auto numpunct_(\w+)\s*=\s*strf::numpunct<10>\{([^}]*)\}(.*);', l)
        if not m:
            assert 'constexpr auto numpunct_' not in l, l
            continue
        gs = [int(x) for x in m.group(2).replace(' ', '').split(',') if x]
        calls = re.findall(r'\.(\w+)\((.*?)\)(?=[.;]|$)', m.group(3) + ';')
        assert {c for c, _ in calls} <= {'decimal_point', 'thousands_sep'} and len(calls) == len({c for c, _ in calls}), l
        d = dict(calls)
        yield m.group(1), gs, ch(d['decimal_point']), (ch(d['thousands_sep']) if 'thousands_sep' in d else None)
HEAD = '''import Verif.Numpunct.Model
/-!
# The predefined numpunct facets

include/strf/detail/facets/numpunct.hpp 665–970. Written by tools/gen_numpunct.py, and compared with the source by tools/check_tables.py.
-/
namespace Strf.Punct
open Strf.Numpunct (Facet)

/-- `constexpr auto numpunct_NAME = strf::numpunct<10>{GROUPS}.thousands_sep(SEP).decimal_point(POINT)`; `sep = none`: without `.thousands_sep(…)` -/
structure Named where
  name : String
  groups : List Int
  point : Nat
  sep : Option Nat
deriving DecidableEq

/-- numpunct.hpp 432–438, 485–508: the constructors and the setters -/
def Named.facet (n : Named) : Facet :=
  let f := if n.groups = [] then Facet.default else Facet.ofGroups n.groups
  let f := match n.sep with
    | some s => f.setSep s
    | none => f
  f.setPoint n.point

/-- numpunct.hpp 665–970: all of them -/
def predefined : List Named := [
'''
def render():
    rows = ['  ⟨"%s", %s, 0x%X, %s⟩' % (n, '[' + ', '.join(map(str, g)) + ']', p, 'none' if s is None else 'some 0x%X' % s) for n, g, p, s in entries()]
    return HEAD + ',\n'.join(rows) + ']\n\nend Strf.Punct\n'
if __name__ == '__main__':
    here = os.path.join(os.path.dirname(os.path.abspath(__file__)), '..', 'lean', 'Verif', 'Punct', 'Table.lean')
    open(here, 'w', encoding='utf-8').write(render())
