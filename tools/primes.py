#!/usr/bin/env python3
"""Writes lean/Verif/Curve/Primes.lean from the certificates in tools/primes.json:
{name: N}, Pocklington {N: [[q, e, a], ...]}, Goldwasser-Kilian {N: [a, b, x, y, q]}.  The certificates are checked by Lean's kernel; this script is not trusted."""
import json, pathlib
root = pathlib.Path(__file__).resolve().parent.parent
d = json.loads((root / 'tools' / 'primes.json').read_text())
names, cert = d['names'], {int(k): v for k, v in d['cert'].items()}
ec = {int(k): [int(x) for x in v] for k, v in d['ec'].items()}
inv = {int(v): k for k, v in names.items()}
out = ['''import Verif.Curve.Ecpp
import Mathlib.Tactic.NormNum.Prime

/-!
# Primality of the field and group orders

Generated by `tools/primes.py` from `tools/primes.json`; each theorem is checked by the kernel from a
Pocklington or Goldwasser–Kilian certificate.
-/

namespace Voprf.Curve
''']
done = set()
def nm(n): return 'prime_' + str(n)
def emit(n):
    if n in done: return
    done.add(n)
    if n < 2000:
        out.append(f'theorem {nm(n)} : Nat.Prime {n} := by norm_num\n'); return
    if n in ec:
        a, b, x, y, q = ec[n]
        emit(q)
        out.append(f'''set_option maxHeartbeats 4000000 in
-- The kernel computation alone may exceed the default.
theorem {nm(n)} :
    Nat.Prime {n} :=
  ecpp _ {a}
    {b}
    ({x},
     {y})
    _ {nm(q)} (by decide +kernel)
'''); return
    c = cert[n]
    for q, e, a in c: emit(q)
    l = ', '.join(f'({q}, {e}, {a})' for q, e, a in c)
    pf = ', '.join(nm(q) for q, e, a in c)
    pf = f'⟨{pf}⟩' if len(c) > 1 else pf
    out.append(f'''theorem {nm(n)} :
    Nat.Prime {n} :=
  pocklington _ [{l}] (by decide +kernel)
    (by simp only [List.forall_mem_cons, List.not_mem_nil, false_implies, implies_true, and_true]
        exact {pf})
''')
for k, v in names.items(): emit(int(v))
for k, v in names.items():
    out.append(f'theorem {k}_prime : Nat.Prime {v} := {nm(v)}\n')
out.append('end Voprf.Curve')
(root / 'lean/Verif/Curve/Primes.lean').write_text('\n'.join(out) + '\n')
