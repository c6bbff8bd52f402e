import Verif.Spec.NlteRun3
import Verif.Spec.NlteLambda
/-! Vocabulary for C94: 3D runs with physical data. -/
namespace DexRT.Nlte3
open DexRT DexRT.Fs DexRT.AtmosFile DexRT.Dir DexRT.Given3 DexRT.Emis DexRT.Lte3 DexRT.RadGamma
open DexRT.Nlte (Joined)

/-- The same run with another place for J and another number of line slots. -/
def Setup.rearranged (q : Setup) (onCpu : Bool) (slots : Nat) : Setup := { q with r := q.r.rearranged onCpu slots q.r.lam }

/-- Physical data: constants, temperatures, densities, abundances and statistical weights are positive; wavelengths, Einstein
coefficients, cross-sections, profile, quadrature weights of the wavelengths, collisional rates and the light from outside are not
negative; and in every atom electron collisions lead from every level to every other, if need be by way of third levels. -/
structure PhysicalRun (q : Setup) (k nx ny nz : Nat) (a : Cond) : Prop where
  consts : 0 < q.r.k.c ∧ 0 < q.r.k.hc ∧ 0 < q.r.k.fourPi ∧ 0 < q.r.k.sqrtPi ∧ 0 < q.r.k.twohc2 ∧ 0 < q.r.k.kB ∧ 0 < q.r.k.dbc ∧ 0 < q.r.k.fmin
  collConsts : 0 < q.ck.kB ∧ 0 < q.ck.seaton ∧ 0 < q.ck.sahaConst
  scale : 0 ≤ a.scale
  cells : ∀ c, InGrid k nx ny nz c → 0 < a.temperature c ∧ 0 < a.ne c ∧ 0 < a.nhTot c
  atoms : ∀ x ∈ q.r.ad.atoms, 0 < x.abundance ∧ ∀ i, 0 < (x.lv i).g
  wave : ∀ l ∈ q.r.ad.wavelength, 0 ≤ l
  bins : ∀ b ∈ q.bin, 0 ≤ b
  lines : ∀ l ∈ q.r.ad.lines, 0 ≤ l.aji ∧ 0 ≤ l.bji ∧ 0 ≤ l.bij ∧ 0 ≤ l.lambda0
  sigma : ∀ t ∈ q.r.ad.conts, ∀ s ∈ t.sigma, 0 ≤ s
  phi : ∀ x y, 0 ≤ q.r.phi x y
  outside : ∀ la x mu, 0 ≤ q.r.bc la x mu
  tables : ∀ ia x, q.r.ad.atoms[ia]? = some x → ∀ c ∈ q.colls ia, ∀ r ∈ c.rates, 0 ≤ r
  connected : ∀ ia x, q.r.ad.atoms[ia]? = some x → ∀ i j, i < x.top + 1 → j < x.top + 1 → Relation.ReflTransGen (Joined (q.colls ia)) i j

/-- No population of the grid is negative. -/
def NoNegative (q : Setup) (k nx ny nz : Nat) (pf : Coord3 → Emis.Pops) : Prop :=
  ∀ c, InGrid k nx ny nz c → ∀ ia x, q.r.ad.atoms[ia]? = some x → ∀ l, l < x.top + 1 → 0 ≤ pf c ia l

end DexRT.Nlte3
