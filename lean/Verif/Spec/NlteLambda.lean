import Verif.Spec.NlteRun
import Verif.Props.Lte
/-! Vocabulary for C90: runs with physical data. -/
namespace DexRT.Nlte
open DexRT DexRT.Fs DexRT.AtmosFile DexRT.Dir DexRT.Given DexRT.Emis DexRT.LteRun DexRT.RadGamma

/-- The same run with another number of wavelengths per batch, another place for J, another number of line slots. -/
def Setup.rearranged (q : Setup) (W : Nat) (onCpu : Bool) (slots : Nat) : Setup := { q with r := q.r.rearranged W onCpu slots }

/-- A transition by electron collisions with positive rates joins levels `i` and `j`. -/
def Joined (colls : List RawColl) (i j : Nat) : Prop :=
  ∃ c ∈ colls, DexRT.ByElectrons c.type ∧ (∀ r ∈ c.rates, 0 < r) ∧ (c.i = i ∧ c.j = j ∨ c.i = j ∧ c.j = i)

/-- Physical data: constants, temperatures, densities, abundances and statistical weights are positive; wavelengths, Einstein
coefficients, cross-sections, profile, quadrature weights, collisional rates and the light from outside are not negative; and in
every atom electron collisions lead from every level to every other, if need be by way of third levels. -/
structure PhysicalRun (q : Setup) (k nx nz : Nat) (a : Cond) : Prop where
  consts : 0 < q.r.k.c ∧ 0 < q.r.k.hc ∧ 0 < q.r.k.fourPi ∧ 0 < q.r.k.sqrtPi ∧ 0 < q.r.k.twohc2 ∧ 0 < q.r.k.kB ∧ 0 < q.r.k.dbc ∧ 0 < q.r.k.fmin
  collConsts : 0 < q.ck.kB ∧ 0 < q.ck.seaton ∧ 0 < q.ck.sahaConst
  scale : 0 ≤ a.scale
  cells : ∀ c, Given.InGrid k nx nz c → 0 < a.temperature c ∧ 0 < a.ne c ∧ 0 < a.nhTot c
  atoms : ∀ x ∈ q.r.ad.atoms, 0 < x.abundance ∧ ∀ i, 0 < (x.lv i).g
  wave : ∀ l ∈ q.r.ad.wavelength, 0 ≤ l
  bins : ∀ b ∈ q.bin, 0 ≤ b
  lines : ∀ l ∈ q.r.ad.lines, 0 ≤ l.aji ∧ 0 ≤ l.bji ∧ 0 ≤ l.bij ∧ 0 ≤ l.lambda0
  sigma : ∀ t ∈ q.r.ad.conts, ∀ s ∈ t.sigma, 0 ≤ s
  phi : ∀ x y, 0 ≤ q.r.phi x y
  weights : ∀ x ∈ q.r.s.wmuy, 0 ≤ x
  outside : ∀ la x mu, 0 ≤ q.r.bc la x mu
  tables : ∀ ia x, q.r.ad.atoms[ia]? = some x → ∀ c ∈ q.colls ia, ∀ r ∈ c.rates, 0 ≤ r
  connected : ∀ ia x, q.r.ad.atoms[ia]? = some x → ∀ i j, i < x.top + 1 → j < x.top + 1 → Relation.ReflTransGen (Joined (q.colls ia)) i j

/-- No population of the grid is negative. -/
def NoNegative (q : Setup) (k nx nz : Nat) (pf : Coord2 → Emis.Pops) : Prop :=
  ∀ c, Given.InGrid k nx nz c → ∀ ia x, q.r.ad.atoms[ia]? = some x → ∀ l, l < x.top + 1 → 0 ≤ pf c ia l

end DexRT.Nlte
