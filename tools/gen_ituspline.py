#!/usr/bin/env python3
"""Writes lean/Verif/Lemmas/ItuSplineData.lean: the inner Bernstein coefficients of the cubic splines through the rows of
the ITU tables in /repo/pycomlink/processing/k_R_relation.py, as exact fractions. Lean checks them (`SplineCert.ok`)."""
import os, re
from fractions import Fraction as Fr
from math import lcm
ROOT = os.path.abspath(os.path.join(os.path.dirname(os.path.abspath(__file__)), ".."))
src = open("/repo/pycomlink/processing/k_R_relation.py").read()

def table(name):
    i = src.index(name + " = np.array(")
    j = src.index("\n)", i)
    rows = re.findall(r"\[([^\[\]]+)\]", src[i + len(name + " = np.array("):j])
    return [[Fr(v) for v in re.findall(r"[\d.]+e[+-]?\d+", r)] for r in rows]

def moments(x, y):
    """second derivatives at the knots (not-a-knot), by elimination"""
    n = len(x)
    h = [x[i + 1] - x[i] for i in range(n - 1)]
    cp, dp = {}, {}
    for i in range(1, n - 1):
        a, b, c = h[i - 1], 2 * (h[i - 1] + h[i]), h[i]
        d = 6 * ((y[i + 1] - y[i]) / h[i] - (y[i] - y[i - 1]) / h[i - 1])
        if i == 1:
            r = h[0] / h[1]; b += a * (1 + r); c -= a * r; a = Fr(0)
        if i == n - 2:
            r = h[n - 2] / h[n - 3]; b += c * (1 + r); a -= c * r; c = Fr(0)
        if i == 1:
            cp[i] = c / b; dp[i] = d / b
        else:
            m = b - a * cp[i - 1]; cp[i] = c / m; dp[i] = (d - a * dp[i - 1]) / m
    M = [Fr(0)] * n
    M[n - 2] = dp[n - 2]
    for i in range(n - 3, 0, -1):
        M[i] = dp[i] - cp[i] * M[i + 1]
    M[0] = (1 + h[0] / h[1]) * M[1] - h[0] / h[1] * M[2]
    r = h[n - 2] / h[n - 3]
    M[n - 1] = (1 + r) * M[n - 2] - r * M[n - 3]
    return M

out = ["""import Verif.Model.ItuTables

/-!
# Bernstein coefficients of the cubic splines through the ITU tables

Generated by `tools/gen_ituspline.py`; nothing is assumed about these numbers, `SplineCert.ok` is checked by the kernel.
-/

namespace Verif.KR

/-- The knots, the values, and for each interval the two inner Bernstein coefficients of the spline times `D`
(all in units of 1e-7). -/
structure SplineCert where
  X : List Nat
  Y : List Nat
  D : Int
  B : List (Int × Int)
"""]
for year in ("2003", "2005"):
    T = table("ITU_table_" + year)
    x = T[0]
    for r in range(1, 5):
        y = T[r]
        M = moments(x, y)
        B = []
        for i in range(len(x) - 1):
            h = x[i + 1] - x[i]
            B.append(((2 * y[i] + y[i + 1]) / 3 - h * h / 18 * (2 * M[i] + M[i + 1]),
                      (y[i] + 2 * y[i + 1]) / 3 - h * h / 18 * (M[i] + 2 * M[i + 1])))
        D = 1
        for p in B:
            for v in p:
                D = lcm(D, (v * 10 ** 7).denominator)
        out.append("/-- row %d of `ITU_table_%s` -/\ndef cert%s_%d : SplineCert where\n  X := rawTable%s.getD 0 []\n  Y := rawTable%s.getD %d []\n  D := %d\n  B := [\n%s]\n" % (
            r, year, year, r, year, year, r, D,
            ",\n".join("    (%d, %d)" % tuple(int(v * 10 ** 7 * D) for v in p) for p in B)))
out.append("end Verif.KR")
open(os.path.join(ROOT, "lean/Verif/Lemmas/ItuSplineData.lean"), "w").write("\n".join(out) + "\n")
