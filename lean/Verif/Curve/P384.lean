import Verif.Curve.Order
import Verif.Curve.Primes

/-!
# NIST P-384: constants, and the proof that the curve has prime order

Also called secp384r1.  Everything here is checked by kernel computation on natural numbers.
-/

namespace Voprf.Curve

/-- `p384` crate constants: curve equation, generator and order (FIPS 186-4 D.1.2), `hash2curve`
parameters (RFC 9380 §8). -/
def p384 : Nist.Params where
  p := 39402006196394479212279040100143613805079739270465446667948293404245721771496870329047266088258938001861606973112319
  n := 39402006196394479212279040100143613805079739270465446667946905279627659399113263569398956308152294913554433653942643
  a := 39402006196394479212279040100143613805079739270465446667948293404245721771496870329047266088258938001861606973112316
  b := 27580193559959705877849011840389048093056905856361568521428707301988689241309860865136260764883745107765439761230575
  gx := 26247035095799689268623156744566981891852923491109213387815615900925518854738050089022388053975719786650872476732087
  gy := 8325710961489029985546751289520108179287853048861315594709205902480503199884419224438643760392947333078086511627871
  fieldLen := 48
  okmLen := 72
  z := 39402006196394479212279040100143613805079739270465446667948293404245721771496870329047266088258938001861606973112307
  c2 := 245581924330355933059354953436454308283684637692875694451750329610872227127112066054762383127358415667364631269478
  p_prime := p384p_prime
  n_prime := p384n_prime
  two_lt_n := by decide +kernel
  p_mod_four := by decide +kernel
  p_lt := by decide +kernel
  n_lt := by decide +kernel
  okmLen_pos := by decide
  okmLen_le := by decide
  a_ne_zero := ne_zero_of _ _ (by decide +kernel)
  b_ne_zero := ne_zero_of _ _ (by decide +kernel)
  discriminant := discriminant_of _ _ _ (by decide +kernel)
  generator := generator_of _ _ _ _ _ (by decide +kernel)
  c2_sq := c2_of _ _ _ (by decide +kernel)
  z_nonsquare := nonsquare_of _ _ p384p_prime (by decide +kernel) (by decide +kernel)
  z_exceptional := exceptional_of _ _ _ _ 37561047755030469683523571075854451141166426459879495640879726933488836242211037541742600528865780251189269636994147 (by decide +kernel)

set_option maxHeartbeats 4000000 in
-- The kernel computation alone exceeds the default.
instance : Nist.PrimeOrder p384 :=
  primeOrder_of_checks (23037766613497683937702734290281044719364893268180251583910224888989381657771069200037813904257325918671976092329602, 8235438212423615602427778915669574859600037698862346933589434399495169446996583974901273360826717582835190849638831, 12157362177932134139146813183752135342286725243554133716818896354380897714709611791313184492360272402950851405460538)
    (by decide +kernel) (by decide +kernel) (by decide +kernel)

end Voprf.Curve
