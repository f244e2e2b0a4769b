import Verif.Model.Consts
import Verif.Proofs.Rounding
import Verif.Proofs.Codec
import Verif.Proofs.Pi
import Verif.Proofs.EulerGamma

/-!
# C57: the mathematical constants are correctly rounded
-/

namespace Verif.Props

open Verif Verif.Spec

set_option exponentiation.threshold 1000

theorem const_rne {q : ℝ} {a b E F : ℕ} (ha : (a : ℝ) ≤ q * 2 ^ 300) (hb : q * 2 ^ 300 ≤ (b : ℝ))
    (hE1 : 262080 ≤ E) (hE2 : E ≤ 262379) (hF0 : 0 < F) (hF : F < 2 ^ 236)
    (h1 : (2 * (2 ^ 236 + F) - 1) * 2 ^ (E - 262080) < a)
    (h2 : b < (2 * (2 ^ 236 + F) + 1) * 2 ^ (E - 262080)) : IsRNE q (E * 2 ^ 236 + F) := by
  obtain ⟨x, rfl⟩ : ∃ x, E = 262080 + x := ⟨E - 262080, by omega⟩
  rw [Nat.add_sub_cancel_left] at h1 h2
  obtain ⟨c, hc⟩ : ∃ c, 2 ^ 236 + F = c := ⟨_, rfl⟩
  rw [hc] at h1 h2
  have hp : (0 : ℝ) < 2 ^ x := by positivity
  have h1R : (2 * (c : ℝ) - 1) * 2 ^ x < q * 2 ^ 300 := by
    refine lt_of_lt_of_le ?_ ha
    have : ((((2 * c - 1) * 2 ^ x : ℕ)) : ℝ) < (a : ℝ) := Nat.cast_lt.mpr h1
    rwa [Nat.cast_mul, Nat.cast_sub (by omega), Nat.cast_mul, Nat.cast_pow, Nat.cast_ofNat, Nat.cast_one] at this
  have h2R : q * 2 ^ 300 < (2 * (c : ℝ) + 1) * 2 ^ x := by
    refine lt_of_le_of_lt hb ?_
    have : (b : ℝ) < (((2 * c + 1) * 2 ^ x : ℕ) : ℝ) := Nat.cast_lt.mpr h2
    rwa [Nat.cast_mul, Nat.cast_add, Nat.cast_mul, Nat.cast_pow, Nat.cast_ofNat, Nat.cast_one] at this
  -- in units of the smallest subnormal number
  have hc0 : (2 : ℝ) ^ 236 + 1 ≤ c := by
    rw [← hc, Nat.cast_add, Nat.cast_pow, Nat.cast_ofNat]
    have : (1 : ℝ) ≤ F := by exact_mod_cast hF0
    linarith
  have hc1 : (c : ℝ) + 1 ≤ 2 ^ 237 := by
    have : ((c + 1 : ℕ) : ℝ) ≤ ((2 ^ 237 : ℕ) : ℝ) := Nat.cast_le.mpr (by omega)
    rwa [Nat.cast_add, Nat.cast_one, Nat.cast_pow, Nat.cast_ofNat] at this
  have hq : 0 < q := by
    have hK : (0 : ℝ) < 2 ^ 300 := by positivity
    have : 0 < (2 * (c : ℝ) - 1) * 2 ^ x := mul_pos (by
      have : (0 : ℝ) < 2 ^ 236 := by positivity
      linarith) hp
    exact pos_of_mul_pos_left (this.trans h1R) hK.le
  obtain ⟨T, hT⟩ : ∃ T : ℝ, 2 ^ (262079 + x) = T := ⟨_, rfl⟩
  obtain ⟨V, hV⟩ : ∃ V : ℝ, q * 2 ^ 262378 = V := ⟨_, rfl⟩
  have hT0 : 0 < T := by rw [← hT]; positivity
  have hlo : ((c : ℝ) - 1 / 2) * T < V ∧ V < ((c : ℝ) + 1 / 2) * T := by
    have e1 : T = 2 ^ x * 2 ^ 262078 * 2 := by
      rw [← hT, ← pow_add, ← pow_succ]; congr 1; omega
    have e2 : V = q * 2 ^ 300 * 2 ^ 262078 := by
      rw [← hV, mul_assoc, ← pow_add]
    have hW : (0 : ℝ) < 2 ^ 262078 := pow_pos (by norm_num) _
    rw [e1, e2]
    generalize (2 : ℝ) ^ 262078 = W at *
    have a1 := mul_lt_mul_of_pos_right h1R hW
    have a2 := mul_lt_mul_of_pos_right h2R hW
    constructor <;> linarith
  obtain ⟨hlo, hhi⟩ := hlo
  have hTp : (2 : ℝ) ^ (262080 + x - 1) = T := by rw [← hT]; congr 1; omega
  have key : RoundsTo (|q| * 2 ^ 262378) ((262080 + x) * 2 ^ 236 + F) := by
    rw [abs_of_pos hq, hV]
    have habs : |V - c * T| < T / 2 := abs_lt.mpr ⟨by linarith, by linarith⟩
    refine ⟨262080 + x - 1, c, ?_, Or.inr ?_, ?_, ?_, ?_⟩
    · rw [pow_add 2 237, hTp]
      exact hhi.trans_le (mul_le_mul_of_nonneg_right (by linarith) hT0.le)
    · rw [pow_add 2 236, hTp]
      exact le_trans (mul_le_mul_of_nonneg_right (by linarith) hT0.le) hlo.le
    · rw [hTp]; exact habs.le
    · rw [hTp]; intro h; linarith
    · rw [if_neg (by omega), ← hc]
      omega
  have := key.isRNE (s := 0) (by norm_num) (fun _ => rfl) (fun h => absurd h (not_lt.mpr hq.le))
  rwa [Nat.zero_mul, Nat.zero_add] at this

theorem le_of_sq_le {a b : ℝ} (hb : 0 ≤ b) (h : a ^ 2 ≤ b ^ 2) : a ≤ b :=
  le_of_sq_le_sq h hb

theorem PI_rne : IsRNE (Real.pi) Consts.PI.pat := by
  rw [show Consts.PI.pat = 262144 * 2 ^ 236 + 63031863411490408627077566509415648911883071898036623897484294463211362 by decide +kernel]
  refine const_rne (a := 6399537258350533404498902296276095619968599404742382956244570183135712832137875919436931981) (b := 6399537258350533404498902296276095619968599404742382956244570183135712832137875919436931982) ?_ ?_ (by norm_num) (by norm_num) (by norm_num) (by norm_num)
    (by norm_num) (by norm_num)
  · have h := pi_tight.1
    rw [show (piNum : ℝ) = 6399537258350533404498902296276095619968599404742382956244570183135712832137875919436931981 by norm_num [piNum]] at h
    generalize (2 : ℝ) ^ 300 = K at *
    push_cast
    linarith
  · have h := pi_tight.2
    rw [show (piNum : ℝ) = 6399537258350533404498902296276095619968599404742382956244570183135712832137875919436931981 by norm_num [piNum]] at h
    generalize (2 : ℝ) ^ 300 = K at *
    push_cast
    linarith

theorem TAU_rne : IsRNE (2 * Real.pi) Consts.TAU.pat := by
  rw [show Consts.TAU.pat = 262145 * 2 ^ 236 + 63031863411490408627077566509415648911883071898036623897484294463211362 by decide +kernel]
  refine const_rne (a := 12799074516701066808997804592552191239937198809484765912489140366271425664275751838873863962) (b := 12799074516701066808997804592552191239937198809484765912489140366271425664275751838873863964) ?_ ?_ (by norm_num) (by norm_num) (by norm_num) (by norm_num)
    (by norm_num) (by norm_num)
  · have h := pi_tight.1
    rw [show (piNum : ℝ) = 6399537258350533404498902296276095619968599404742382956244570183135712832137875919436931981 by norm_num [piNum]] at h
    generalize (2 : ℝ) ^ 300 = K at *
    push_cast
    linarith
  · have h := pi_tight.2
    rw [show (piNum : ℝ) = 6399537258350533404498902296276095619968599404742382956244570183135712832137875919436931981 by norm_num [piNum]] at h
    generalize (2 : ℝ) ^ 300 = K at *
    push_cast
    linarith

theorem FRAC_3_PI_2_rne : IsRNE (3 * Real.pi / 2) Consts.FRAC_3_PI_2.pat := by
  rw [show Consts.FRAC_3_PI_2.pat = 262145 * 2 ^ 236 + 19666912171455551320569151432953634874107868034845921702463123952211338 by decide +kernel]
  refine const_rne (a := 9599305887525800106748353444414143429952899107113574434366855274703569248206813879155397971) (b := 9599305887525800106748353444414143429952899107113574434366855274703569248206813879155397973) ?_ ?_ (by norm_num) (by norm_num) (by norm_num) (by norm_num)
    (by norm_num) (by norm_num)
  · have h := pi_tight.1
    rw [show (piNum : ℝ) = 6399537258350533404498902296276095619968599404742382956244570183135712832137875919436931981 by norm_num [piNum]] at h
    generalize (2 : ℝ) ^ 300 = K at *
    push_cast
    linarith
  · have h := pi_tight.2
    rw [show (piNum : ℝ) = 6399537258350533404498902296276095619968599404742382956244570183135712832137875919436931981 by norm_num [piNum]] at h
    generalize (2 : ℝ) ^ 300 = K at *
    push_cast
    linarith

theorem FRAC_PI_2_rne : IsRNE (Real.pi / 2) Consts.FRAC_PI_2.pat := by
  rw [show Consts.FRAC_PI_2.pat = 262143 * 2 ^ 236 + 63031863411490408627077566509415648911883071898036623897484294463211362 by decide +kernel]
  refine const_rne (a := 3199768629175266702249451148138047809984299702371191478122285091567856416068937959718465990) (b := 3199768629175266702249451148138047809984299702371191478122285091567856416068937959718465991) ?_ ?_ (by norm_num) (by norm_num) (by norm_num) (by norm_num)
    (by norm_num) (by norm_num)
  · have h := pi_tight.1
    rw [show (piNum : ℝ) = 6399537258350533404498902296276095619968599404742382956244570183135712832137875919436931981 by norm_num [piNum]] at h
    generalize (2 : ℝ) ^ 300 = K at *
    push_cast
    linarith
  · have h := pi_tight.2
    rw [show (piNum : ℝ) = 6399537258350533404498902296276095619968599404742382956244570183135712832137875919436931981 by norm_num [piNum]] at h
    generalize (2 : ℝ) ^ 300 = K at *
    push_cast
    linarith

theorem FRAC_PI_3_rne : IsRNE (Real.pi / 3) Consts.FRAC_PI_3.pat := by
  rw [show Consts.FRAC_PI_3.pat = 262143 * 2 ^ 236 + 5211928424777265551733013074132963528182800080449020970789400448544663 by decide +kernel]
  refine const_rne (a := 2133179086116844468166300765425365206656199801580794318748190061045237610712625306478977327) (b := 2133179086116844468166300765425365206656199801580794318748190061045237610712625306478977328) ?_ ?_ (by norm_num) (by norm_num) (by norm_num) (by norm_num)
    (by norm_num) (by norm_num)
  · have h := pi_tight.1
    rw [show (piNum : ℝ) = 6399537258350533404498902296276095619968599404742382956244570183135712832137875919436931981 by norm_num [piNum]] at h
    generalize (2 : ℝ) ^ 300 = K at *
    push_cast
    linarith
  · have h := pi_tight.2
    rw [show (piNum : ℝ) = 6399537258350533404498902296276095619968599404742382956244570183135712832137875919436931981 by norm_num [piNum]] at h
    generalize (2 : ℝ) ^ 300 = K at *
    push_cast
    linarith

theorem FRAC_PI_4_rne : IsRNE (Real.pi / 4) Consts.FRAC_PI_4.pat := by
  rw [show Consts.FRAC_PI_4.pat = 262142 * 2 ^ 236 + 63031863411490408627077566509415648911883071898036623897484294463211362 by decide +kernel]
  refine const_rne (a := 1599884314587633351124725574069023904992149851185595739061142545783928208034468979859232995) (b := 1599884314587633351124725574069023904992149851185595739061142545783928208034468979859232996) ?_ ?_ (by norm_num) (by norm_num) (by norm_num) (by norm_num)
    (by norm_num) (by norm_num)
  · have h := pi_tight.1
    rw [show (piNum : ℝ) = 6399537258350533404498902296276095619968599404742382956244570183135712832137875919436931981 by norm_num [piNum]] at h
    generalize (2 : ℝ) ^ 300 = K at *
    push_cast
    linarith
  · have h := pi_tight.2
    rw [show (piNum : ℝ) = 6399537258350533404498902296276095619968599404742382956244570183135712832137875919436931981 by norm_num [piNum]] at h
    generalize (2 : ℝ) ^ 300 = K at *
    push_cast
    linarith

theorem FRAC_PI_6_rne : IsRNE (Real.pi / 6) Consts.FRAC_PI_6.pat := by
  rw [show Consts.FRAC_PI_6.pat = 262142 * 2 ^ 236 + 5211928424777265551733013074132963528182800080449020970789400448544663 by decide +kernel]
  refine const_rne (a := 1066589543058422234083150382712682603328099900790397159374095030522618805356312653239488663) (b := 1066589543058422234083150382712682603328099900790397159374095030522618805356312653239488664) ?_ ?_ (by norm_num) (by norm_num) (by norm_num) (by norm_num)
    (by norm_num) (by norm_num)
  · have h := pi_tight.1
    rw [show (piNum : ℝ) = 6399537258350533404498902296276095619968599404742382956244570183135712832137875919436931981 by norm_num [piNum]] at h
    generalize (2 : ℝ) ^ 300 = K at *
    push_cast
    linarith
  · have h := pi_tight.2
    rw [show (piNum : ℝ) = 6399537258350533404498902296276095619968599404742382956244570183135712832137875919436931981 by norm_num [piNum]] at h
    generalize (2 : ℝ) ^ 300 = K at *
    push_cast
    linarith

theorem FRAC_PI_8_rne : IsRNE (Real.pi / 8) Consts.FRAC_PI_8.pat := by
  rw [show Consts.FRAC_PI_8.pat = 262141 * 2 ^ 236 + 63031863411490408627077566509415648911883071898036623897484294463211362 by decide +kernel]
  refine const_rne (a := 799942157293816675562362787034511952496074925592797869530571272891964104017234489929616497) (b := 799942157293816675562362787034511952496074925592797869530571272891964104017234489929616498) ?_ ?_ (by norm_num) (by norm_num) (by norm_num) (by norm_num)
    (by norm_num) (by norm_num)
  · have h := pi_tight.1
    rw [show (piNum : ℝ) = 6399537258350533404498902296276095619968599404742382956244570183135712832137875919436931981 by norm_num [piNum]] at h
    generalize (2 : ℝ) ^ 300 = K at *
    push_cast
    linarith
  · have h := pi_tight.2
    rw [show (piNum : ℝ) = 6399537258350533404498902296276095619968599404742382956244570183135712832137875919436931981 by norm_num [piNum]] at h
    generalize (2 : ℝ) ^ 300 = K at *
    push_cast
    linarith

theorem E_rne : IsRNE (Real.exp 1) Consts.E.pat := by
  rw [show Consts.E.pat = 262144 * 2 ^ 236 + 39659191884266094932389747682225471484326877664618774419095619113591437 by decide +kernel]
  refine const_rne (a := 5537237878387363237216193389651445841628722148776809528350562273342596806064126836398590246) (b := 5537237878387363237216193389651445841628722148776809528350562273342596806064126836398590247) ?_ ?_ (by norm_num) (by norm_num) (by norm_num) (by norm_num)
    (by norm_num) (by norm_num)
  · have h := e_tight.1
    rw [show (eNum : ℝ) = 5537237878387363237216193389651445841628722148776809528350562273342596806064126836398590246 by norm_num [eNum]] at h
    push_cast
    linarith
  · have h := e_tight.2
    rw [show (eNum : ℝ) = 5537237878387363237216193389651445841628722148776809528350562273342596806064126836398590246 by norm_num [eNum]] at h
    push_cast
    linarith

theorem FRAC_1_PI_rne : IsRNE (1 / Real.pi) Consts.FRAC_1_PI.pat := by
  rw [show Consts.FRAC_1_PI.pat = 262141 * 2 ^ 236 + 30173280474794014339543544543104592667890497197966393824576324351917015 by decide +kernel]
  refine const_rne (a := 648408689779317174025802229594263648399971131412517346792672022245288155639266751919804946) (b := 648408689779317174025802229594263648399971131412517346792672022245288155639266751919804947) ?_ ?_ (by norm_num) (by norm_num) (by norm_num) (by norm_num)
    (by norm_num) (by norm_num)
  · rw [div_mul_eq_mul_div, le_div_iff₀ Real.pi_pos]
    have h := pi_tight.2
    rw [show (piNum : ℝ) = 6399537258350533404498902296276095619968599404742382956244570183135712832137875919436931981 by norm_num [piNum]] at h
    norm_num at h ⊢
    linarith
  · rw [div_mul_eq_mul_div, div_le_iff₀ Real.pi_pos]
    have h := pi_tight.1
    rw [show (piNum : ℝ) = 6399537258350533404498902296276095619968599404742382956244570183135712832137875919436931981 by norm_num [piNum]] at h
    norm_num at h ⊢
    linarith

theorem FRAC_2_PI_rne : IsRNE (2 / Real.pi) Consts.FRAC_2_PI.pat := by
  rw [show Consts.FRAC_2_PI.pat = 262142 * 2 ^ 236 + 30173280474794014339543544543104592667890497197966393824576324351917015 by decide +kernel]
  refine const_rne (a := 1296817379558634348051604459188527296799942262825034693585344044490576311278533503839609892) (b := 1296817379558634348051604459188527296799942262825034693585344044490576311278533503839609893) ?_ ?_ (by norm_num) (by norm_num) (by norm_num) (by norm_num)
    (by norm_num) (by norm_num)
  · rw [div_mul_eq_mul_div, le_div_iff₀ Real.pi_pos]
    have h := pi_tight.2
    rw [show (piNum : ℝ) = 6399537258350533404498902296276095619968599404742382956244570183135712832137875919436931981 by norm_num [piNum]] at h
    norm_num at h ⊢
    linarith
  · rw [div_mul_eq_mul_div, div_le_iff₀ Real.pi_pos]
    have h := pi_tight.1
    rw [show (piNum : ℝ) = 6399537258350533404498902296276095619968599404742382956244570183135712832137875919436931981 by norm_num [piNum]] at h
    norm_num at h ⊢
    linarith

theorem SQRT_PI_rne : IsRNE (√Real.pi) Consts.SQRT_PI.pat := by
  rw [show Consts.SQRT_PI.pat = 262143 * 2 ^ 236 + 85300488696823169194239850406326972466663304798449990368630124215877281 by decide +kernel]
  refine const_rne (a := 3610552260687137476131786448400711185848331461481444524103216023324115251025152197191465281) (b := 3610552260687137476131786448400711185848331461481444524103216023324115251025152197191465283) ?_ ?_ (by norm_num) (by norm_num) (by norm_num) (by norm_num)
    (by norm_num) (by norm_num)
  · refine le_of_sq_le (by positivity) ?_
    rw [mul_pow, Real.sq_sqrt Real.pi_pos.le]
    have h := pi_tight
    rw [show (piNum : ℝ) = 6399537258350533404498902296276095619968599404742382956244570183135712832137875919436931981 by norm_num [piNum]] at h
    obtain ⟨h1, h2⟩ := h
    norm_num at h1 h2 ⊢
    linarith
  · refine le_of_sq_le (by positivity) ?_
    rw [mul_pow, Real.sq_sqrt Real.pi_pos.le]
    have h := pi_tight
    rw [show (piNum : ℝ) = 6399537258350533404498902296276095619968599404742382956244570183135712832137875919436931981 by norm_num [piNum]] at h
    obtain ⟨h1, h2⟩ := h
    norm_num at h1 h2 ⊢
    linarith

theorem FRAC_2_SQRT_PI_rne : IsRNE (2 / √Real.pi) Consts.FRAC_2_SQRT_PI.pat := by
  rw [show Consts.FRAC_2_SQRT_PI.pat = 262143 * 2 ^ 236 + 14176647160087508167225879994703568192381192645272684290520033901549981 by decide +kernel]
  refine const_rne (a := 2298548958319901672615460685175353800383491471103661605170551642714553776506332151740828452) (b := 2298548958319901672615460685175353800383491471103661605170551642714553776506332151740828453) ?_ ?_ (by norm_num) (by norm_num) (by norm_num) (by norm_num)
    (by norm_num) (by norm_num)
  · refine le_of_sq_le (by positivity) ?_
    rw [mul_pow, div_pow, Real.sq_sqrt Real.pi_pos.le, div_mul_eq_mul_div, le_div_iff₀ Real.pi_pos]
    have h := pi_tight
    rw [show (piNum : ℝ) = 6399537258350533404498902296276095619968599404742382956244570183135712832137875919436931981 by norm_num [piNum]] at h
    obtain ⟨h1, h2⟩ := h
    norm_num at h1 h2 ⊢
    linarith
  · refine le_of_sq_le (by positivity) ?_
    rw [mul_pow, div_pow, Real.sq_sqrt Real.pi_pos.le, div_mul_eq_mul_div, div_le_iff₀ Real.pi_pos]
    have h := pi_tight
    rw [show (piNum : ℝ) = 6399537258350533404498902296276095619968599404742382956244570183135712832137875919436931981 by norm_num [piNum]] at h
    obtain ⟨h1, h2⟩ := h
    norm_num at h1 h2 ⊢
    linarith

theorem SQRT_2_rne : IsRNE (√2) Consts.SQRT_2.pat := by
  rw [show Consts.SQRT_2.pat = 262143 * 2 ^ 236 + 45740751054393825351268213345786427270645981098981771549402354425049190 by decide +kernel]
  refine const_rne (a := 2880803904774149308502448588657477566259038238645601596552806329494324040842165671306495831) (b := 2880803904774149308502448588657477566259038238645601596552806329494324040842165671306495832) ?_ ?_ (by norm_num) (by norm_num) (by norm_num) (by norm_num)
    (by norm_num) (by norm_num)
  · refine le_of_sq_le (by positivity) ?_
    rw [mul_pow, Real.sq_sqrt (by norm_num)]
    norm_num
  · refine le_of_sq_le (by positivity) ?_
    rw [mul_pow, Real.sq_sqrt (by norm_num)]
    norm_num

theorem SQRT_5_rne : IsRNE (√5) Consts.SQRT_5.pat := by
  rw [show Consts.SQRT_5.pat = 262144 * 2 ^ 236 + 13034250410427284378758081282049850908151925966114681113819784983682316 by decide +kernel]
  refine const_rne (a := 4554950915696563770443708308562645684457382849738670619907099279235785948628501381013449338) (b := 4554950915696563770443708308562645684457382849738670619907099279235785948628501381013449339) ?_ ?_ (by norm_num) (by norm_num) (by norm_num) (by norm_num)
    (by norm_num) (by norm_num)
  · refine le_of_sq_le (by positivity) ?_
    rw [mul_pow, Real.sq_sqrt (by norm_num)]
    norm_num
  · refine le_of_sq_le (by positivity) ?_
    rw [mul_pow, Real.sq_sqrt (by norm_num)]
    norm_num

theorem FRAC_1_SQRT_2_rne : IsRNE (1 / √2) Consts.FRAC_1_SQRT_2.pat := by
  rw [show Consts.FRAC_1_SQRT_2.pat = 262142 * 2 ^ 236 + 45740751054393825351268213345786427270645981098981771549402354425049190 by decide +kernel]
  refine const_rne (a := 1440401952387074654251224294328738783129519119322800798276403164747162020421082835653247915) (b := 1440401952387074654251224294328738783129519119322800798276403164747162020421082835653247916) ?_ ?_ (by norm_num) (by norm_num) (by norm_num) (by norm_num)
    (by norm_num) (by norm_num)
  · refine le_of_sq_le (by positivity) ?_
    rw [mul_pow, div_pow, Real.sq_sqrt (by norm_num)]
    norm_num
  · refine le_of_sq_le (by positivity) ?_
    rw [mul_pow, div_pow, Real.sq_sqrt (by norm_num)]
    norm_num

theorem PHI_rne : IsRNE ((1 + √5) / 2) Consts.PHI.pat := by
  rw [show Consts.PHI.pat = 262143 * 2 ^ 236 + 68248221184751794678236128180266054527760797743477773555119978774076684 by decide +kernel]
  refine const_rne (a := 3295993446015524928356076998486011922754425621702303435271619864295083624195919043598423357) (b := 3295993446015524928356076998486011922754425621702303435271619864295083624195919043598423358) ?_ ?_ (by norm_num) (by norm_num) (by norm_num) (by norm_num)
    (by norm_num) (by norm_num)
  · have h : ((4554950915696563770443708308562645684457382849738670619907099279235785948628501381013449338 : ℕ) : ℝ) ≤ √5 * 2 ^ 300 := le_of_sq_le (by positivity) (by
      rw [mul_pow, Real.sq_sqrt (by norm_num)]
      norm_num)
    norm_num at h ⊢
    linarith
  · have h : √5 * 2 ^ 300 ≤ ((4554950915696563770443708308562645684457382849738670619907099279235785948628501381013449339 : ℕ) : ℝ) := le_of_sq_le (by positivity) (by
      rw [mul_pow, Real.sq_sqrt (by norm_num)]
      norm_num)
    norm_num at h ⊢
    linarith

theorem GAMMA_rne : IsRNE Real.eulerMascheroniConstant Consts.GAMMA.pat := by
  rw [show Consts.GAMMA.pat = 262142 * 2 ^ 236 + 17053533860773080927480669596564188818673271637907264697974270489693715 by decide +kernel]
  refine const_rne (a := 1175809075508253543287410665846631300113693313600019919346911762570612523496256209751613498) (b := 1175809075508253543287410665846631300113693313600019919346911762570612523496256209751613499) ?_ ?_ (by norm_num) (by norm_num) (by norm_num) (by norm_num)
    (by norm_num) (by norm_num)
  · exact_mod_cast EulerGamma.gamma_tight.1
  · exact_mod_cast EulerGamma.gamma_tight.2

/-- Every constant is the correctly rounded value of what its name says. -/
theorem C57_consts :
    IsRNE (Real.pi) Consts.PI.pat ∧
    IsRNE (2 * Real.pi) Consts.TAU.pat ∧
    IsRNE (3 * Real.pi / 2) Consts.FRAC_3_PI_2.pat ∧
    IsRNE (Real.pi / 2) Consts.FRAC_PI_2.pat ∧
    IsRNE (Real.pi / 3) Consts.FRAC_PI_3.pat ∧
    IsRNE (Real.pi / 4) Consts.FRAC_PI_4.pat ∧
    IsRNE (Real.pi / 6) Consts.FRAC_PI_6.pat ∧
    IsRNE (Real.pi / 8) Consts.FRAC_PI_8.pat ∧
    IsRNE (1 / Real.pi) Consts.FRAC_1_PI.pat ∧
    IsRNE (2 / Real.pi) Consts.FRAC_2_PI.pat ∧
    IsRNE (√Real.pi) Consts.SQRT_PI.pat ∧
    IsRNE (2 / √Real.pi) Consts.FRAC_2_SQRT_PI.pat ∧
    IsRNE (√2) Consts.SQRT_2.pat ∧
    IsRNE (1 / √2) Consts.FRAC_1_SQRT_2.pat ∧
    IsRNE (√5) Consts.SQRT_5.pat ∧
    IsRNE ((1 + √5) / 2) Consts.PHI.pat ∧
    IsRNE Real.eulerMascheroniConstant Consts.GAMMA.pat ∧
    IsRNE (Real.exp 1) Consts.E.pat :=
  ⟨PI_rne, TAU_rne, FRAC_3_PI_2_rne, FRAC_PI_2_rne, FRAC_PI_3_rne, FRAC_PI_4_rne, FRAC_PI_6_rne, FRAC_PI_8_rne, FRAC_1_PI_rne, FRAC_2_PI_rne, SQRT_PI_rne, FRAC_2_SQRT_PI_rne, SQRT_2_rne, FRAC_1_SQRT_2_rne, SQRT_5_rne, PHI_rne, GAMMA_rne, E_rne⟩

end Verif.Props
