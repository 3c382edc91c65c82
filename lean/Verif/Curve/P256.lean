import Verif.Curve.Order
import Verif.Curve.Primes

/-!
# NIST P-256: constants, and the proof that the curve has prime order

Also called secp256r1.  Everything here is checked by kernel computation on natural numbers.
-/

namespace Voprf.Curve

/-- `p256` crate constants: curve equation, generator and order (FIPS 186-4 D.1.2), `hash2curve`
parameters (RFC 9380 §8). -/
def p256 : Nist.Params where
  p := 115792089210356248762697446949407573530086143415290314195533631308867097853951
  n := 115792089210356248762697446949407573529996955224135760342422259061068512044369
  a := 115792089210356248762697446949407573530086143415290314195533631308867097853948
  b := 41058363725152142129326129780047268409114441015993725554835256314039467401291
  gx := 48439561293906451759052585252797914202762949526041747995844080717082404635286
  gy := 36134250956749795798585127919587881956611106672985015071877198253568414405109
  fieldLen := 32
  okmLen := 48
  z := 115792089210356248762697446949407573530086143415290314195533631308867097853941
  c2 := 61181595916461500887819182775203103403569161913793237367988468591075761958142
  p_prime := p256p_prime
  n_prime := p256n_prime
  two_lt_n := by decide +kernel
  p_mod_four := by decide +kernel
  p_lt := by decide +kernel
  n_lt := by decide +kernel
  okmLen_pos := by decide
  okmLen_le := by decide
  a_ne_zero := ne_zero_of _ _ (by decide +kernel)
  b_ne_zero := ne_zero_of _ _ (by decide +kernel)
  discriminant := discriminant_of _ _ _ (by decide +kernel)
  generator := generator_of _ _ _ _ _ (by decide +kernel)
  c2_sq := c2_of _ _ _ (by decide +kernel)
  z_nonsquare := nonsquare_of _ _ p256p_prime (by decide +kernel) (by decide +kernel)
  z_exceptional := exceptional_of _ _ _ _ 6501495017824578668815466053538685894748441653268928328498100493089435342678 (by decide +kernel)

instance : Nist.PrimeOrder p256 :=
  primeOrder_of_checks (76626890310466861426869089647039036757962535851890885406097439786770458211455, 74462945259064871768191128030512052509059297803194871526163573358218695456204, 34768139465301476436978405170953382516735956999154666452188405812258086013549)
    (by decide +kernel) (by decide +kernel) (by decide +kernel)

end Voprf.Curve
