import Verif.Curve.Order
import Verif.Curve.Primes

/-!
# NIST P-521: constants, and the proof that the curve has prime order

Also called secp521r1.  Everything here is checked by kernel computation on natural numbers.
-/

namespace Voprf.Curve

/-- `p521` crate constants: curve equation, generator and order (FIPS 186-4 D.1.2), `hash2curve`
parameters (RFC 9380 §8). -/
def p521 : Nist.Params where
  p := 6864797660130609714981900799081393217269435300143305409394463459185543183397656052122559640661454554977296311391480858037121987999716643812574028291115057151
  n := 6864797660130609714981900799081393217269435300143305409394463459185543183397655394245057746333217197532963996371363321113864768612440380340372808892707005449
  a := 6864797660130609714981900799081393217269435300143305409394463459185543183397656052122559640661454554977296311391480858037121987999716643812574028291115057148
  b := 1093849038073734274511112390766805569936207598951683748994586394495953116150735016013708737573759623248592132296706313309438452531591012912142327488478985984
  gx := 2661740802050217063228768716723360960729859168756973147706671368418802944996427808491545080627771902352094241225065558662157113545570916814161637315895999846
  gy := 3757180025770020463545507224491183603594455134769762486694567779615544477440556316691234405012945539562144444537289428522585666729196580810124344277578376784
  fieldLen := 66
  okmLen := 98
  z := 6864797660130609714981900799081393217269435300143305409394463459185543183397656052122559640661454554977296311391480858037121987999716643812574028291115057147
  c2 := 8
  p_prime := p521p_prime
  n_prime := p521n_prime
  two_lt_n := by decide +kernel
  p_mod_four := by decide +kernel
  p_lt := by decide +kernel
  n_lt := by decide +kernel
  okmLen_pos := by decide
  okmLen_le := by decide
  a_ne_zero := ne_zero_of _ _ (by decide +kernel)
  b_ne_zero := ne_zero_of _ _ (by decide +kernel)
  discriminant := discriminant_of _ _ _ (by decide +kernel)
  generator := generator_of _ _ _ _ _ (by decide +kernel)
  c2_sq := c2_of _ _ _ (by decide +kernel)
  z_nonsquare := nonsquare_of _ _ p521p_prime (by decide +kernel) (by decide +kernel)
  z_exceptional := exceptional_of _ _ _ _ 4188908791901337644056397817783792572876836449495258060969526555609398613698955607791458766794689806573214219675396443069584436669967806295120330080081548533 (by decide +kernel)

set_option maxHeartbeats 4000000 in
-- The kernel computation alone exceeds the default.
instance : Nist.PrimeOrder p521 :=
  primeOrder_of_checks (5556850081864827842302249485475501585472702946772625307642304195702912034363837867267334216347521692509406916620096684956176894315447091116492501000392161958, 2592645775458497527836362227091103884154287512470494672274301275565663408730650270660448980645397363205839490313252565391972848223674401530161387302727484004, 3919380404691066388712376322317341026252002696138380915147944189379687824774581460974855590730258562532022938584569429027963361353339635641909491533809725330)
    (by decide +kernel) (by decide +kernel) (by decide +kernel)

end Voprf.Curve
