#!/usr/bin/env python3
"""Writes lean/Verif/Model/ItuTables.lean from the literals in /repo/pycomlink/processing/k_R_relation.py
(text only: the decimal literals are converted exactly to integers in units of 1e-7)."""
import re, os
from decimal import Decimal
src = open("/repo/pycomlink/processing/k_R_relation.py").read()
def table(name):
    t = src[src.index(name + " = np.array("):]
    t = t[:t.index("\n)\n")]
    rows = re.findall(r"\[([^\[\]]+)\]", t)
    out = []
    for r in rows:
        vals = [Decimal(x.strip()) for x in r.replace("\n", " ").split(",") if x.strip()]
        ints = [v * Decimal(10**7) for v in vals]
        assert all(i == i.to_integral_value() for i in ints)
        out.append([int(i) for i in ints])
    return out
def fmt(rows):
    s = []
    for r in rows:
        lines, cur = [], "    ["
        for k, v in enumerate(r):
            tok = str(v) + (", " if k + 1 < len(r) else "]")
            if len(cur) + len(tok) > 98:
                lines.append(cur.rstrip()); cur = "     "
            cur += tok
        lines.append(cur)
        s.append("\n".join(lines))
    return "[\n" + ",\n".join(s) + "]"
out = '''/-!
# ITU tables of `pycomlink/processing/k_R_relation.py`

Generated by `tools/gen_itu.py` from the decimal literals in the source. Entries are in units
of `10^-7` (every literal is an exact multiple).
-/

namespace Verif.KR

/-- k_R_relation.py L271-L379 `ITU_table_2005`, in units of 1e-7.
Row order: frequency, k_H, k_V, alpha_H, alpha_V. -/
def rawTable2005 : List (List Nat) := %s

/-- k_R_relation.py L381-L389 `ITU_table_2003`, in units of 1e-7, same row order. -/
def rawTable2003 : List (List Nat) := %s

end Verif.KR
''' % (fmt(table("ITU_table_2005")), fmt(table("ITU_table_2003")))
open(os.path.join(os.path.dirname(os.path.abspath(__file__)), "../lean/Verif/Model/ItuTables.lean"), "w").write(out)
