#!/usr/bin/env python3
"""Writes lean/Verif/Exec/Vectors/*.lean from /repo/src/tests/cfrg_vectors.rs (RFC 9497 Appendix A).

To save build time only the first OPRF and the batch VOPRF and POPRF vectors of P-384 and P-521 are written,
unless --all is given."""
import re, pathlib, sys
root = pathlib.Path(__file__).resolve().parent.parent
src = pathlib.Path('/repo/src/tests/cfrg_vectors.rs').read_text()
src = src[src.index('r#"') + 3:src.rindex('"#')]
suites = re.split(r'\nA\.\d\.  (.+?)\n\n', src)[1:]
SU = {'P256-SHA256': ('P256', 'Curve.p256', 'P256Sha256'), 'P384-SHA384': ('P384', 'Curve.p384', 'P384Sha384'),
      'P521-SHA512': ('P521', 'Curve.p521', 'P521Sha512'),
      'ristretto255-SHA512': ('Ristretto', None, '(Ristretto255Sha512 Ristretto.ristretto255)')}
def params(t):
    out = {}
    key = None
    for line in t.split('\n'):
        line = line.strip()
        if not line: key = None; continue
        m = re.match(r'(\w+) = (.*)', line)
        if m: key = m[1]; out[key] = m[2]
        elif key: out[key] += line
    return out
def lit(h):
    return f'toBeBytes {len(h)//2} 0x{h}' if h else '[]'
def lst(h): return '[' + ', '.join(lit(x) for x in h.split(',')) + ']'
odir = root / 'lean/Verif/Exec/Vectors'
odir.mkdir(exist_ok=True)
last = None
for name, body in zip(suites[::2], suites[1::2]):
    if name not in SU: continue
    short, curve, cs = SU[name]
    prev = '\nimport Verif.Exec.Vectors.' + last if last else ''  # built one after the other, to bound memory
    last = short
    modes = re.split(r'A\.\d.\d\.  (.*?) Mode', body)[1:]
    out = [f'''import Verif.Exec.{'Nist' if curve else 'Ristretto'}
import Verif.Exec.Vector
import Verif.Model.Suites{prev}

/-!
# RFC 9497 test vectors: {name}

Generated by `tools/vectors.py` from `src/tests/cfrg_vectors.rs`.  Tests of the model, evaluated by the kernel.
-/

-- One kernel computation at a time, to bound memory.
set_option Elab.async false

namespace Voprf.Exec.{short}

/-- The suite with fast group operations. -/
noncomputable def fastSuite : CipherSuite where
  ID := {cs}.ID
  group := {'Nist.fast ' + curve if curve else 'Ristretto.fast Ristretto.ristretto255'}
  hash := {cs}.hash

theorem suite_eq : {cs} = fastSuite := by
  unfold fastSuite
  rw [{'Nist' if curve else 'Ristretto'}.fast_eq]
  rfl
''']
    for mode, mb in zip(modes[::2], modes[1::2]):
        vecs = re.split(r'A\.\d.\d\.\d\.  Test Vector.*\n', mb)
        common = params(vecs[0])
        for i, v in enumerate(vecs[1:], 1):
            if short in ('P384', 'P521') and i != (1 if mode == 'OPRF' else 3) and '--all' not in sys.argv: continue
            p = dict(common); p.update(params(v))
            nm = f'{mode.lower()}{i}'
            g = lambda k: p.get(k, '')
            out.append(f'''def {nm} : Vector where
  seed := {lit(g('Seed'))}
  sksm := {lit(g('skSm'))}
  pksm := {lit(g('pkSm'))}
  input := {lst(g('Input'))}
  info := {lit(g('Info'))}
  keyInfo := {lit(g('KeyInfo'))}
  blind := {lst(g('Blind'))}
  blindedElement := {lst(g('BlindedElement'))}
  evaluationElement := {lst(g('EvaluationElement'))}
  proof := {lit(g('Proof'))}
  proofRandomScalar := {lit(g('ProofRandomScalar'))}
  output := {lst(g('Output'))}

''')
            m = mode.lower()
            parts = ['Key', 'Blind', 'BlindEvaluate', 'Finalize', 'Evaluate']
            for q in parts:
                out.append(f'''set_option maxHeartbeats 4000000 in
-- The kernel computation alone may exceed the default.
theorem {nm}_{q} : {m}{q} fastSuite {nm} = true := by decide +kernel
''')
            out.append(f'''theorem {nm}_passes : complete {nm} = true ∧ {m} {cs} {nm} = true := by
  rw [suite_eq]
  refine ⟨by decide +kernel, ?_⟩
  unfold {m}
  rw [{', '.join(nm + '_' + q for q in parts)}]
  rfl
''')
    out.append(f'end Voprf.Exec.{short}')
    (odir / f'{short}.lean').write_text('\n'.join(out) + '\n')
