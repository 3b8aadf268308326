import Verif.Conformance.EvalCS
import Verif.Lemmas.Utils

/-!
# The numbers in `tests/test_common_utils.py`

Both tests of that file: the parameter object is built from the arguments of the test, `function_cross_section` of the test's list of
points (named tuples and bare pairs, `t` real or complex) returns a list, and the test's `cmath.isclose(actual, expected, abs_tol=1e-15)`
accepts every entry. Decimal literals are read exactly. The long integers approximate square roots, values of the conformal variable
and of the form factor in units of `2 ^ -120`; they are checked, not trusted.
-/

namespace UA
namespace Conformance

open Complex Ball

/-- The point is read, the cross section of the model has a value there, and its modulus is close to `e`. -/
def UtilsPoint (x : KaonArgs) (d : Datapoint) (e : ℝ) : Prop :=
  ∃ y, kaonPoint (fun c t => (ScalarCS.init 0.493677 0.0072973525693 389379.3721).call (x.run c) t) d = .ok y ∧ IsClose y e 1e-15

theorem UtilsPoint.of_norm {x : KaonArgs} {d : Datapoint} {t : ℂ} {c : Bool} {e : ℂ} (hd : readDatapointKaon d = .ok (t, c))
    (h : ∃ y, (ScalarCS.init 0.493677 0.0072973525693 389379.3721).call (x.run c) t = .ok y ∧ IsClose y e 1e-15) : UtilsPoint x d ‖e‖ := by
  obtain ⟨y, hy, hc⟩ := h
  refine ⟨‖y‖, ?_, ?_⟩
  · unfold kaonPoint
    rw [hd, except_ok_bind]
    simp only [hy]
    rfl
  · unfold IsClose at hc ⊢
    rw [← Complex.ofReal_sub, Complex.norm_real, Complex.norm_real, Complex.norm_real, Real.norm_eq_abs, norm_norm, norm_norm]
    exact (abs_norm_sub_norm_le y e).trans hc

theorem UtilsPoint.of_real {x : KaonArgs} {d : Datapoint} {t : ℂ} {c : Bool} {e : ℝ} (he : 0 ≤ e) (hd : readDatapointKaon d = .ok (t, c))
    (h : ∃ y, (ScalarCS.init 0.493677 0.0072973525693 389379.3721).call (x.run c) t = .ok y ∧ IsClose y ⟨e, 0⟩ 1e-15) : UtilsPoint x d e := by
  have := UtilsPoint.of_norm hd h
  rwa [show (⟨e, 0⟩ : ℂ) = (e : ℂ) from rfl, Complex.norm_real, Real.norm_eq_abs, abs_of_nonneg he] at this

theorem row_charged {t : ℂ} : readDatapointKaon (.row [t, 1]) = .ok (t, true) := by
  show Except.ok (t, decide ((1 : ℂ) ≠ 0)) = _
  simp

theorem row_neutral {t : ℂ} : readDatapointKaon (.row [t, 0]) = .ok (t, false) := by
  show Except.ok (t, decide ((0 : ℂ) ≠ 0)) = _
  simp

theorem utils_results {c : ParamClass} (hc : IsKaonClass c) {kw : List (String × ℝ)}
    (h1 : c.table.initArgs.all (fun n => (kw.map Prod.fst).contains n) = true) (h2 : (kw.map Prod.fst).all (fun n => c.table.initArgs.contains n) = true)
    {x : KaonArgs} (hx : KaonArgs.ofValues c (fun n => (kw.lookup n).getD 0) = x) (hb : x.Builds true)
    {ds : List Datapoint} {es : List ℝ} (h : List.Forall₂ (UtilsPoint x) ds es) :
    ∃ p ys, c.init kw = .ok p ∧ functionCrossSection ds 0.493677 0.0072973525693 389379.3721 p = .ok ys ∧
      List.Forall₂ (fun (y e : ℝ) => IsClose y e 1e-15) ys es := by
  have hl : ∀ n ∈ c.table.initArgs, kw.lookup n = some ((kw.lookup n).getD 0) := by
    intro n hn
    rcases hk : kw.lookup n with _ | y
    · have hm := List.all_eq_true.mp h1 n hn
      rw [List.contains_iff_mem, List.mem_map] at hm
      obtain ⟨q, hq, rfl⟩ := hm
      simpa using List.lookup_eq_none_iff.mp hk q hq
    · rfl
  have hinit := init_eq c (f := fun n => (kw.lookup n).getD 0) hl fun q hq => by
    have := List.all_eq_true.mp h2 q.1 (List.mem_map_of_mem hq)
    rwa [List.contains_iff_mem] at this
  have hwire := kaon_wiring_values (reachable_wellFormed (.init hinit)) (v := fun n => (kw.lookup n).getD 0) (by
    intro q hq
    obtain ⟨n, -, rfl⟩ := List.mem_map.mp hq
    rfl) hc
  rw [hx] at hwire
  have hcheck : x.check = .ok () := by
    cases x <;> (obtain ⟨m, hm⟩ := hb; unfold KaonArgs.check; simp only [hm]; rfl)
  have hall : ∃ ys, ds.mapM (kaonPoint fun c t => (ScalarCS.init 0.493677 0.0072973525693 389379.3721).call (x.run c) t) = .ok ys ∧
      List.Forall₂ (fun (y e : ℝ) => IsClose y e 1e-15) ys es := by
    clear hwire hinit hl h1 h2
    induction h with
    | nil => exact ⟨[], rfl, .nil⟩
    | cons hd _ ih =>
      obtain ⟨y, hy, hye⟩ := hd
      obtain ⟨ys, hys, hyes⟩ := ih
      refine ⟨y :: ys, ?_, .cons hye hyes⟩
      rw [List.mapM_cons, hy, except_ok_bind, hys]
      rfl
  obtain ⟨ys, hys, hyes⟩ := hall
  refine ⟨_, ys, hinit, ?_, hyes⟩
  rw [hwire.cs, hcheck, except_ok_bind, hys]

/-- The arguments at `tests/test_common_utils.py:29-62` (`test_function_cross_section__with_kaon_parameters`). -/
noncomputable def utilsFullKw : List (String × ℝ) := [
  ("t_0_isoscalar", 9 * 0.13957039 ^ 2),
  ("t_0_isovector", 4 * 0.13957039 ^ 2),
  ("t_in_isoscalar", 1.35),
  ("t_in_isovector", 0.59),
  ("a_omega", 0.004),
  ("mass_omega", 0.78266),
  ("decay_rate_omega", 0.00868),
  ("a_omega_prime", 0.27),
  ("mass_omega_prime", 1.41),
  ("decay_rate_omega_prime", 0.29),
  ("a_omega_double_prime", 0),
  ("mass_omega_double_prime", 1.67),
  ("decay_rate_omega_double_prime", 0.315),
  ("a_phi", -0.01),
  ("mass_phi", 1.019461),
  ("decay_rate_phi", 0.004249),
  ("a_phi_prime", 0),
  ("mass_phi_prime", 1.68),
  ("decay_rate_phi_prime", 0.15),
  ("mass_phi_double_prime", 2.159),
  ("decay_rate_phi_double_prime", 0.137),
  ("a_rho", 0.24),
  ("mass_rho", 0.77525),
  ("decay_rate_rho", 0.1474),
  ("a_rho_prime", 0.1),
  ("mass_rho_prime", 1.465),
  ("decay_rate_rho_prime", 0.4),
  ("a_rho_double_prime", -0.1),
  ("mass_rho_double_prime", 1.57),
  ("decay_rate_rho_double_prime", 0.144),
  ("mass_rho_triple_prime", 1.72),
  ("decay_rate_rho_triple_prime", 0.25)]

/-- The arguments of the model the test is about. -/
noncomputable def utilsFull : KaonArgs := .full {
  t_0_isoscalar := 9 * 0.13957039 ^ 2,
  t_0_isovector := 4 * 0.13957039 ^ 2,
  t_in_isoscalar := 1.35,
  t_in_isovector := 0.59,
  a_omega := 0.004,
  mass_omega := 0.78266,
  decay_rate_omega := 0.00868,
  a_omega_prime := 0.27,
  mass_omega_prime := 1.41,
  decay_rate_omega_prime := 0.29,
  a_omega_double_prime := 0,
  mass_omega_double_prime := 1.67,
  decay_rate_omega_double_prime := 0.315,
  a_phi := -0.01,
  mass_phi := 1.019461,
  decay_rate_phi := 0.004249,
  a_phi_prime := 0,
  mass_phi_prime := 1.68,
  decay_rate_phi_prime := 0.15,
  mass_phi_double_prime := 2.159,
  decay_rate_phi_double_prime := 0.137,
  a_rho := 0.24,
  mass_rho := 0.77525,
  decay_rate_rho := 0.1474,
  a_rho_prime := 0.1,
  mass_rho_prime := 1.465,
  decay_rate_rho_prime := 0.4,
  a_rho_double_prime := -0.1,
  mass_rho_double_prime := 1.57,
  decay_rate_rho_double_prime := 0.144,
  mass_rho_triple_prime := 1.72,
  decay_rate_rho_triple_prime := 0.25 }

def utilsFullS : Ball × Ball × Ball × List ResB :=
  ((ofRat (1753190438827689) 0 10000000000000000), ((ofRat (27) 0 20) - (ofRat (1753190438827689) 0 10000000000000000)).sqrt 1440653184970899183603728118461066399 0, ⟨-247832371716745286972297857258411996, -1, 1048665, false, true⟩,
   [⟨ofRat (1) 0 250, .A, ⟨-4436193995148669838900629221578461, -452451121910134879543737592500506564, 1651450, false, true⟩⟩,
    ⟨ofRat (27) 0 100, .B, ⟨-710943770123738545956752521075537148, -904633047718628540925415288710310459, 1049286, false, true⟩⟩,
    ⟨ofRat (0) 0 1, .B, ⟨-912807631617739086616464774526727440, -803820261037854062493924385316833651, 1049249, false, true⟩⟩,
    ⟨ofRat (-1) 0 100, .A, ⟨-3669261600014330214803687761183368, -752787831271910252635714324201438225, 3550520, false, true⟩⟩,
    ⟨ofRat (0) 0 1, .B, ⟨-952739317889229460420642199697471671, -846073884138392886619122821889810745, 1049664, false, true⟩⟩,
    ⟨ofRat (59) 0 250, .B, ⟨-1120355748922248667526641588104498976, -666122528897100742498673156050211838, 1049776, false, true⟩⟩])

theorem utilsFullS_ok : ChanOK (9 * 0.13957039 ^ 2) (1.35) [⟨0.004, 0.78266, 0.00868⟩, ⟨0.27, 1.41, 0.29⟩, ⟨0, 1.67, 0.315⟩, ⟨-0.01, 1.019461, 0.004249⟩, ⟨0, 1.68, 0.15⟩, ⟨1 / 2 - (0.004 + 0.27 + 0 + (-0.01) + 0), 2.159, 0.137⟩]
    utilsFullS.1 utilsFullS.2.1 utilsFullS.2.2.1 utilsFullS.2.2.2 := by
  have h0 : Mem (((9 * 0.13957039 ^ 2 : ℝ)) : ℂ) (ofRat (1753190438827689) 0 10000000000000000) := mem_real (by norm_num)
  have hA := mem_sqrt_real (x := 1.35) (y := 9 * 0.13957039 ^ 2) (X := (ofRat (27) 0 20)) (mem_real (by norm_num)) h0 (by norm_num) 1440653184970899183603728118461066399
  refine ⟨h0, hA, (mem_Wval h0 hA mem_zero ⟨0, 556562609311857193495124351664243605, 1239916842900659073109441613283410935, 479012825997015091903916883888108752⟩).within (by decide +kernel), ?_⟩
  exact .cons ⟨mem_real (by norm_num), by norm_num [Res.var], (mem_Wval h0 hA (mem_pole (M := (ofRat (39133) 0 50000)) (G := (ofRat (217) 0 25000)) (mem_real (by norm_num)) (mem_real (by norm_num))) ⟨-878945601005082175515123572328462464, 6828099334110795115418264284385507, 654110186263353215529117650949098150, 4938303898927743259560512719885833⟩).within (by decide +kernel)⟩ (
    .cons ⟨mem_real (by norm_num), by norm_num [Res.var], (mem_Wval h0 hA (mem_pole (M := (ofRat (141) 0 100)) (G := (ofRat (29) 0 100)) (mem_real (by norm_num)) (mem_real (by norm_num))) ⟨-1790657509889317814592107813260223416, 201731420106276353553564491030616076, 107160357289406011479105006707254749, 457141841506340677206214697235142666⟩).within (by decide +kernel)⟩ (
    .cons ⟨mem_real (by norm_num), by norm_num [Res.var], (mem_Wval h0 hA (mem_pole (M := (ofRat (167) 0 100)) (G := (ofRat (63) 0 200)) (mem_real (by norm_num)) (mem_real (by norm_num))) ⟨-2149583313345044758590141934475702863, 216193039054698999386561148764745157, 70991655872300577548786696739423644, 599204063895698519034110560965143514⟩).within (by decide +kernel)⟩ (
    .cons ⟨mem_real (by norm_num), by norm_num [Res.var], (mem_Wval h0 hA (mem_pole (M := (ofRat (1019461) 0 1000000)) (G := (ofRat (4249) 0 1000000)) (mem_real (by norm_num)) (mem_real (by norm_num))) ⟨-1235526254381797683692463547797796355, 3097236243293990619359835230797179, 368013258734889265676806360274352800, 2991150249790917553205172248044527⟩).within (by decide +kernel)⟩ (
    .cons ⟨mem_real (by norm_num), by norm_num [Res.var], (mem_Wval h0 hA (mem_pole (M := (ofRat (42) 0 25)) (G := (ofRat (3) 0 20)) (mem_real (by norm_num)) (mem_real (by norm_num))) ⟨-2162786158721047446350845971043458999, 102933306311578783401425018408418797, 33773402072096180631731949060226126, 596967728507704006921201850463961041⟩).within (by decide +kernel)⟩ (
    .cons ⟨mem_real (by norm_num), by norm_num [Res.var], (mem_Wval h0 hA (mem_pole (M := (ofRat (2159) 0 1000)) (G := (ofRat (137) 0 1000)) (mem_real (by norm_num)) (mem_real (by norm_num))) ⟨-2815374285869387502483798893680207883, 92812406503877149602029342374759685, 17243099187661887963906475916234200, 756020866183682009366322260863103519⟩).within (by decide +kernel)⟩ (
    .nil))))))

def utilsFullV : Ball × Ball × Ball × List ResB :=
  ((ofRat (194798937647521) 0 2500000000000000), ((ofRat (59) 0 100) - (ofRat (194798937647521) 0 2500000000000000)).sqrt 951192827841683612833139530759015150 0, ⟨-250076570451075855049630455198968379, -1, 1048748, false, true⟩,
   [⟨ofRat (6) 0 25, .B, ⟨-349060287431752658101848996988321958, -923843425026751431302399128345188913, 1050355, false, true⟩⟩,
    ⟨ofRat (1) 0 10, .B, ⟨-1073468223191976296363562837144997028, -597130284549614914403505449315271123, 1049130, false, true⟩⟩,
    ⟨ofRat (-1) 0 10, .B, ⟨-1150149733387952260645811159334779150, -599113589030030801577950389271693587, 1049783, false, true⟩⟩,
    ⟨ofRat (13) 0 50, .B, ⟨-1166033376569217865905787837472295196, -538110302936440158603025875059062367, 1049403, false, true⟩⟩])

theorem utilsFullV_ok : ChanOK (4 * 0.13957039 ^ 2) (0.59) [⟨0.24, 0.77525, 0.1474⟩, ⟨0.1, 1.465, 0.4⟩, ⟨-0.1, 1.57, 0.144⟩, ⟨1 / 2 - (0.24 + 0.1 + (-0.1)), 1.72, 0.25⟩]
    utilsFullV.1 utilsFullV.2.1 utilsFullV.2.2.1 utilsFullV.2.2.2 := by
  have h0 : Mem (((4 * 0.13957039 ^ 2 : ℝ)) : ℂ) (ofRat (194798937647521) 0 2500000000000000) := mem_real (by norm_num)
  have hA := mem_sqrt_real (x := 0.59) (y := 4 * 0.13957039 ^ 2) (X := (ofRat (59) 0 100)) (mem_real (by norm_num)) h0 (by norm_num) 951192827841683612833139530759015150
  refine ⟨h0, hA, (mem_Wval h0 hA mem_zero ⟨0, 371041739541238128996749567776162402, 1238347583894790701530447304062930912, 483055199993042860029651952417247882⟩).within (by decide +kernel), ?_⟩
  exact .cons ⟨mem_real (by norm_num), by norm_num [Res.var], (mem_Wval h0 hA (mem_pole (M := (ofRat (3101) 0 4000)) (G := (ofRat (737) 0 5000)) (mem_real (by norm_num)) (mem_real (by norm_num))) ⟨-962100846065289582682701438200666740, 104927089288514421288107783791288557, 202399338867925407068610773187749821, 237289538509014434825367169834478001⟩).within (by decide +kernel)⟩ (
    .cons ⟨mem_real (by norm_num), by norm_num [Res.var], (mem_Wval h0 hA (mem_pole (M := (ofRat (293) 0 200)) (G := (ofRat (2) 0 5)) (mem_real (by norm_num)) (mem_real (by norm_num))) ⟨-1912325686987829905263429869191911005, 270710263164164242132452137022299214, 70503578783532523230694165423481926, 780004104966789556881919320572533372⟩).within (by decide +kernel)⟩ (
    .cons ⟨mem_real (by norm_num), by norm_num [Res.var], (mem_Wval h0 hA (mem_pole (M := (ofRat (157) 0 100)) (G := (ofRat (18) 0 125)) (mem_real (by norm_num)) (mem_real (by norm_num))) ⟨-2053710710382475005604465736498648854, 97250499397431042911601906977482623, 22428838462998119500546470170000956, 806188986320818161243729178689512556⟩).within (by decide +kernel)⟩ (
    .cons ⟨mem_real (by norm_num), by norm_num [Res.var], (mem_Wval h0 hA (mem_pole (M := (ofRat (43) 0 25)) (G := (ofRat (1) 0 4)) (mem_real (by norm_num)) (mem_real (by norm_num))) ⟨-2256127443378672426592955415914324596, 168373519874601437360157331362803947, 32266914268488609139959445690718324, 850166522176744884110888267234819280⟩).within (by decide +kernel)⟩ (
    .nil))))

theorem utilsFull_builds (charged : Bool) : utilsFull.Builds charged ∧ utilsFull.Proper := by
  have hp : utilsFull.Proper := by constructor <;> norm_num [utilsFull, KaonArgs.t0S, KaonArgs.tinS, KaonArgs.t0V, KaonArgs.tinV]
  refine ⟨builds_of_pos ?_ ?_ hp ?_ ?_, hp⟩ <;>
    simp [utilsFull, KaonArgs.t0S, KaonArgs.tinS, KaonArgs.t0V, KaonArgs.tinV, KaonArgs.resS, KaonArgs.resV,
      KaonUAModel.Args.resS, KaonUAModel.Args.resV] <;> norm_num

/-- The point at `tests/test_common_utils.py:16`, the value at line 73. -/
theorem utilsFull_point1 : UtilsPoint utilsFull (.kaon ⟨1.123, 0⟩ true) 1.422899583299445 := by
  have ht : Mem ⟨1.123, 0⟩ (ofRat (1123) (0) 1000) := mem_gauss (by norm_num) (by norm_num)
  obtain ⟨F, h1, h2⟩ := kaon_value (TinS := (ofRat (27) 0 20)) (TinV := (ofRat (59) 0 100))
    (utilsFull_builds true).1 (utilsFull_builds true).2 utilsFullS_ok utilsFullV_ok (by norm_num) ht
    (mem_real (by norm_num [utilsFull, KaonArgs.tinS])) (mem_real (by norm_num [utilsFull, KaonArgs.tinV]))
    ⟨1293988916359835987343641887319187296, 0, 5739678505774528751415729676730691914, 0⟩
    ⟨1358858815795201590536334799988969926, 0, 0, 3164157439302475453065004558753501802⟩
    (by decide +kernel)
  refine .of_real (by norm_num) rfl (scalar_close (M := (ofRat (493677) 0 1000000)) (AL := (ofRat (72973525693) 0 10000000000000)) (HC := (ofRat (3893793721) 0 10000)) (E := ofRat (284579916659889) (0) 200000000000000)
    (F := ⟨1632520374520121053597666709791918347, -221178957991815432972788375394959567, 70922121, false, true⟩) (mem_real (by norm_num)) (mem_real (by norm_num)) (mem_real (by norm_num)) h1
    (h2.within (by decide +kernel)) ht (mem_gauss (by norm_num) (by norm_num)) (by norm_num)
    false (by norm_num) (482763203092702558683897364924339117) (0) (by decide +kernel))

/-- The point at `tests/test_common_utils.py:17`, the value at line 74. -/
theorem utilsFull_point2 : UtilsPoint utilsFull (.kaon ⟨1.123, 0.732⟩ true) ‖(⟨7.322169806015914, 5.145404160322535⟩ : ℂ)‖ := by
  have ht : Mem ⟨1.123, 0.732⟩ (ofRat (1123) (732) 1000) := mem_gauss (by norm_num) (by norm_num)
  obtain ⟨F, h1, h2⟩ := kaon_value (TinS := (ofRat (27) 0 20)) (TinV := (ofRat (59) 0 100))
    (utilsFull_builds true).1 (utilsFull_builds true).2 utilsFullS_ok utilsFullV_ok (by norm_num) ht
    (mem_real (by norm_num [utilsFull, KaonArgs.tinS])) (mem_real (by norm_num [utilsFull, KaonArgs.tinV]))
    ⟨1376616395903759889981525513714972579, 469750344128617722367765046807217022, 2272426137784735990267151410968463557, 2341018961740024048608601744424158938⟩
    ⟨1431936471523139019151464277989135164, 451602454835887617641556104499009357, 712840316189559581398627019339223103, 2447277295918731188752191142051871136⟩
    (by decide +kernel)
  refine .of_norm rfl (scalar_close (M := (ofRat (493677) 0 1000000)) (AL := (ofRat (72973525693) 0 10000000000000)) (HC := (ofRat (3893793721) 0 10000)) (E := ofRat (7322169806015914) (5145404160322535) 1000000000000000)
    (F := ⟨1361888418799068087622916640829218542, 701890676646046586463317062117261801, 89805638, false, true⟩) (mem_real (by norm_num)) (mem_real (by norm_num)) (mem_real (by norm_num)) h1
    (h2.within (by decide +kernel)) ht (mem_gauss (by norm_num) (by norm_num)) (by norm_num)
    false (by norm_num) (915089930106689593950863983873585976) (383376360529195966079857209577184871) (by decide +kernel))

/-- The point at `tests/test_common_utils.py:18`, the value at line 75. -/
theorem utilsFull_point3 : UtilsPoint utilsFull (.row [⟨0, 0.732⟩, 1]) ‖(⟨43.88590980666062, -8.017152698541237⟩ : ℂ)‖ := by
  have ht : Mem ⟨0, 0.732⟩ (ofRat (0) (183) 250) := mem_gauss (by norm_num) (by norm_num)
  obtain ⟨F, h1, h2⟩ := kaon_value (TinS := (ofRat (27) 0 20)) (TinV := (ofRat (59) 0 100))
    (utilsFull_builds true).1 (utilsFull_builds true).2 utilsFullS_ok utilsFullV_ok (by norm_num) ht
    (mem_real (by norm_num [utilsFull, KaonArgs.tinS])) (mem_real (by norm_num [utilsFull, KaonArgs.tinV]))
    ⟨714194626345812786224259222125644442, 905447901530098047837250142545472662, 1505829821051783706419940459957451710, 1135774419911208825736432207142643458⟩
    ⟨762550607485089477571638004818385680, 848030306921673050452291716015620387, 1216961887698233334185860137759381858, 1551685897997275864781929195765886372⟩
    (by decide +kernel)
  refine .of_norm row_charged (scalar_close (M := (ofRat (493677) 0 1000000)) (AL := (ofRat (72973525693) 0 10000000000000)) (HC := (ofRat (3893793721) 0 10000)) (E := ofRat (43885909806660620) (-8017152698541237) 1000000000000000)
    (F := ⟨1037345428521107725196572320940172986, 400332280726875647470640690809699712, 49900836, false, true⟩) (mem_real (by norm_num)) (mem_real (by norm_num)) (mem_real (by norm_num)) h1
    (h2.within (by decide +kernel)) ht (mem_gauss (by norm_num) (by norm_num)) (by norm_num)
    false (by norm_num) (1534504253454742830334636586685697847) (766717835381643703917071483810931098) (by decide +kernel))

/-- The point at `tests/test_common_utils.py:19`, the value at line 76. -/
theorem utilsFull_point4 : UtilsPoint utilsFull (.kaon ⟨0, -0.732⟩ true) ‖(⟨43.88590980666064, 8.01715269854124⟩ : ℂ)‖ := by
  have ht : Mem ⟨0, -0.732⟩ (ofRat (0) (-183) 250) := mem_gauss (by norm_num) (by norm_num)
  obtain ⟨F, h1, h2⟩ := kaon_value (TinS := (ofRat (27) 0 20)) (TinV := (ofRat (59) 0 100))
    (utilsFull_builds true).1 (utilsFull_builds true).2 utilsFullS_ok utilsFullV_ok (by norm_num) ht
    (mem_real (by norm_num [utilsFull, KaonArgs.tinS])) (mem_real (by norm_num [utilsFull, KaonArgs.tinV]))
    ⟨-714194626345812786224259222125644442, 905447901530098047837250142545472662, 747875130582915868048058253637525879, 564085948311565785992708044352451194⟩
    ⟨-762550607485089477571638004818385680, 848030306921673050452291716015620388, 552928103422548275351219154476694069, 705010361754152213350237966932700884⟩
    (by decide +kernel)
  refine .of_norm rfl (scalar_close (M := (ofRat (493677) 0 1000000)) (AL := (ofRat (72973525693) 0 10000000000000)) (HC := (ofRat (3893793721) 0 10000)) (E := ofRat (1097147745166516) (200428817463531) 25000000000000)
    (F := ⟨1037345428521107725196572320940172985, -400332280726875647470640690809699724, 49390302, false, true⟩) (mem_real (by norm_num)) (mem_real (by norm_num)) (mem_real (by norm_num)) h1
    (h2.within (by decide +kernel)) ht (mem_gauss (by norm_num) (by norm_num)) (by norm_num)
    true (by norm_num) (-1534504253454742830334636586685697847) (766717835381643703917071483810931096) (by decide +kernel))

/-- The point at `tests/test_common_utils.py:20`, the value at line 77. -/
theorem utilsFull_point5 : UtilsPoint utilsFull (.row [⟨1.123, -0.732⟩, 1]) ‖(⟨7.32216980601591, -5.145404160322531⟩ : ℂ)‖ := by
  have ht : Mem ⟨1.123, -0.732⟩ (ofRat (1123) (-732) 1000) := mem_gauss (by norm_num) (by norm_num)
  obtain ⟨F, h1, h2⟩ := kaon_value (TinS := (ofRat (27) 0 20)) (TinV := (ofRat (59) 0 100))
    (utilsFull_builds true).1 (utilsFull_builds true).2 utilsFullS_ok utilsFullV_ok (by norm_num) ht
    (mem_real (by norm_num [utilsFull, KaonArgs.tinS])) (mem_real (by norm_num [utilsFull, KaonArgs.tinV]))
    ⟨-1376616395903759889981525513714972579, 469750344128617722367765046807217023, 377200294867007252589143669151929946, 388586026174832190343381269271726670⟩
    ⟨-1431936471523139019151464277989135164, 451602454835887617641556104499009357, 193846423966880534633589987405852248, 665501012632163227055446252713010639⟩
    (by decide +kernel)
  refine .of_norm row_charged (scalar_close (M := (ofRat (493677) 0 1000000)) (AL := (ofRat (72973525693) 0 10000000000000)) (HC := (ofRat (3893793721) 0 10000)) (E := ofRat (7322169806015910) (-5145404160322531) 1000000000000000)
    (F := ⟨1361888418799068087622916640829218539, -701890676646046586463317062117261816, 88901715, false, true⟩) (mem_real (by norm_num)) (mem_real (by norm_num)) (mem_real (by norm_num)) h1
    (h2.within (by decide +kernel)) ht (mem_gauss (by norm_num) (by norm_num)) (by norm_num)
    true (by norm_num) (-915089930106689593950863983873585975) (383376360529195966079857209577184870) (by decide +kernel))

/-- The point at `tests/test_common_utils.py:21`, the value at line 78. -/
theorem utilsFull_point6 : UtilsPoint utilsFull (.row [⟨1.123, 0⟩, 0]) 0.5325913326692017 := by
  have ht : Mem ⟨1.123, 0⟩ (ofRat (1123) (0) 1000) := mem_gauss (by norm_num) (by norm_num)
  obtain ⟨F, h1, h2⟩ := kaon_value (TinS := (ofRat (27) 0 20)) (TinV := (ofRat (59) 0 100))
    (utilsFull_builds false).1 (utilsFull_builds false).2 utilsFullS_ok utilsFullV_ok (by norm_num) ht
    (mem_real (by norm_num [utilsFull, KaonArgs.tinS])) (mem_real (by norm_num [utilsFull, KaonArgs.tinV]))
    ⟨1293988916359835987343641887319187296, 0, 5739678505774528751415729676730691914, 0⟩
    ⟨1358858815795201590536334799988969926, 0, 0, 3164157439302475453065004558753501802⟩
    (by decide +kernel)
  refine .of_real (by norm_num) row_neutral (scalar_close (M := (ofRat (493677) 0 1000000)) (AL := (ofRat (72973525693) 0 10000000000000)) (HC := (ofRat (3893793721) 0 10000)) (E := ofRat (5325913326692017) (0) 10000000000000000)
    (F := ⟨979826689168360352286487976275283893, 236232838466898011046467528192406021, 70922121, false, true⟩) (mem_real (by norm_num)) (mem_real (by norm_num)) (mem_real (by norm_num)) h1
    (h2.within (by decide +kernel)) ht (mem_gauss (by norm_num) (by norm_num)) (by norm_num)
    false (by norm_num) (482763203092702558683897364924339117) (0) (by decide +kernel))

/-- The point at `tests/test_common_utils.py:22`, the value at line 79. -/
theorem utilsFull_point7 : UtilsPoint utilsFull (.kaon ⟨1.123, 0.732⟩ false) ‖(⟨1.1155860768607209, 0.7839399239773068⟩ : ℂ)‖ := by
  have ht : Mem ⟨1.123, 0.732⟩ (ofRat (1123) (732) 1000) := mem_gauss (by norm_num) (by norm_num)
  obtain ⟨F, h1, h2⟩ := kaon_value (TinS := (ofRat (27) 0 20)) (TinV := (ofRat (59) 0 100))
    (utilsFull_builds false).1 (utilsFull_builds false).2 utilsFullS_ok utilsFullV_ok (by norm_num) ht
    (mem_real (by norm_num [utilsFull, KaonArgs.tinS])) (mem_real (by norm_num [utilsFull, KaonArgs.tinV]))
    ⟨1376616395903759889981525513714972579, 469750344128617722367765046807217022, 2272426137784735990267151410968463557, 2341018961740024048608601744424158938⟩
    ⟨1431936471523139019151464277989135164, 451602454835887617641556104499009357, 712840316189559581398627019339223103, 2447277295918731188752191142051871136⟩
    (by decide +kernel)
  refine .of_norm rfl (scalar_close (M := (ofRat (493677) 0 1000000)) (AL := (ofRat (72973525693) 0 10000000000000)) (HC := (ofRat (3893793721) 0 10000)) (E := ofRat (11155860768607209) (7839399239773068) 10000000000000000)
    (F := ⟨535717464351677203546985942412652206, 265798622944718722966906634317666417, 89805638, false, true⟩) (mem_real (by norm_num)) (mem_real (by norm_num)) (mem_real (by norm_num)) h1
    (h2.within (by decide +kernel)) ht (mem_gauss (by norm_num) (by norm_num)) (by norm_num)
    false (by norm_num) (915089930106689593950863983873585976) (383376360529195966079857209577184871) (by decide +kernel))

/-- The point at `tests/test_common_utils.py:23`, the value at line 80. -/
theorem utilsFull_point8 : UtilsPoint utilsFull (.kaon ⟨0, 0.732⟩ false) ‖(⟨1.5146068572452065, -0.27669095858528914⟩ : ℂ)‖ := by
  have ht : Mem ⟨0, 0.732⟩ (ofRat (0) (183) 250) := mem_gauss (by norm_num) (by norm_num)
  obtain ⟨F, h1, h2⟩ := kaon_value (TinS := (ofRat (27) 0 20)) (TinV := (ofRat (59) 0 100))
    (utilsFull_builds false).1 (utilsFull_builds false).2 utilsFullS_ok utilsFullV_ok (by norm_num) ht
    (mem_real (by norm_num [utilsFull, KaonArgs.tinS])) (mem_real (by norm_num [utilsFull, KaonArgs.tinV]))
    ⟨714194626345812786224259222125644442, 905447901530098047837250142545472662, 1505829821051783706419940459957451710, 1135774419911208825736432207142643458⟩
    ⟨762550607485089477571638004818385680, 848030306921673050452291716015620387, 1216961887698233334185860137759381858, 1551685897997275864781929195765886372⟩
    (by decide +kernel)
  refine .of_norm rfl (scalar_close (M := (ofRat (493677) 0 1000000)) (AL := (ofRat (72973525693) 0 10000000000000)) (HC := (ofRat (3893793721) 0 10000)) (E := ofRat (75730342862260325) (-13834547929264457) 50000000000000000)
    (F := ⟨194916144147817925098301173807505670, -68389466017616360045072156175813182, 49900836, false, true⟩) (mem_real (by norm_num)) (mem_real (by norm_num)) (mem_real (by norm_num)) h1
    (h2.within (by decide +kernel)) ht (mem_gauss (by norm_num) (by norm_num)) (by norm_num)
    false (by norm_num) (1534504253454742830334636586685697847) (766717835381643703917071483810931098) (by decide +kernel))

/-- The point at `tests/test_common_utils.py:24`, the value at line 81. -/
theorem utilsFull_point9 : UtilsPoint utilsFull (.row [⟨0, -0.732⟩, 0]) ‖(⟨1.5146068572451994, 0.27669095858528786⟩ : ℂ)‖ := by
  have ht : Mem ⟨0, -0.732⟩ (ofRat (0) (-183) 250) := mem_gauss (by norm_num) (by norm_num)
  obtain ⟨F, h1, h2⟩ := kaon_value (TinS := (ofRat (27) 0 20)) (TinV := (ofRat (59) 0 100))
    (utilsFull_builds false).1 (utilsFull_builds false).2 utilsFullS_ok utilsFullV_ok (by norm_num) ht
    (mem_real (by norm_num [utilsFull, KaonArgs.tinS])) (mem_real (by norm_num [utilsFull, KaonArgs.tinV]))
    ⟨-714194626345812786224259222125644442, 905447901530098047837250142545472662, 747875130582915868048058253637525879, 564085948311565785992708044352451194⟩
    ⟨-762550607485089477571638004818385680, 848030306921673050452291716015620388, 552928103422548275351219154476694069, 705010361754152213350237966932700884⟩
    (by decide +kernel)
  refine .of_norm row_neutral (scalar_close (M := (ofRat (493677) 0 1000000)) (AL := (ofRat (72973525693) 0 10000000000000)) (HC := (ofRat (3893793721) 0 10000)) (E := ofRat (75730342862259970) (13834547929264393) 50000000000000000)
    (F := ⟨194916144147817925098301173807505671, 68389466017616360045072156175813180, 49390302, false, true⟩) (mem_real (by norm_num)) (mem_real (by norm_num)) (mem_real (by norm_num)) h1
    (h2.within (by decide +kernel)) ht (mem_gauss (by norm_num) (by norm_num)) (by norm_num)
    true (by norm_num) (-1534504253454742830334636586685697847) (766717835381643703917071483810931096) (by decide +kernel))

/-- The point at `tests/test_common_utils.py:25`, the value at line 82. -/
theorem utilsFull_point10 : UtilsPoint utilsFull (.kaon ⟨1.123, -0.732⟩ false) ‖(⟨1.115586076860725, -0.7839399239773098⟩ : ℂ)‖ := by
  have ht : Mem ⟨1.123, -0.732⟩ (ofRat (1123) (-732) 1000) := mem_gauss (by norm_num) (by norm_num)
  obtain ⟨F, h1, h2⟩ := kaon_value (TinS := (ofRat (27) 0 20)) (TinV := (ofRat (59) 0 100))
    (utilsFull_builds false).1 (utilsFull_builds false).2 utilsFullS_ok utilsFullV_ok (by norm_num) ht
    (mem_real (by norm_num [utilsFull, KaonArgs.tinS])) (mem_real (by norm_num [utilsFull, KaonArgs.tinV]))
    ⟨-1376616395903759889981525513714972579, 469750344128617722367765046807217023, 377200294867007252589143669151929946, 388586026174832190343381269271726670⟩
    ⟨-1431936471523139019151464277989135164, 451602454835887617641556104499009357, 193846423966880534633589987405852248, 665501012632163227055446252713010639⟩
    (by decide +kernel)
  refine .of_norm rfl (scalar_close (M := (ofRat (493677) 0 1000000)) (AL := (ofRat (72973525693) 0 10000000000000)) (HC := (ofRat (3893793721) 0 10000)) (E := ofRat (5577930384303625) (-3919699619886549) 5000000000000000)
    (F := ⟨535717464351677203546985942412652201, -265798622944718722966906634317666422, 88901715, false, true⟩) (mem_real (by norm_num)) (mem_real (by norm_num)) (mem_real (by norm_num)) h1
    (h2.within (by decide +kernel)) ht (mem_gauss (by norm_num) (by norm_num)) (by norm_num)
    true (by norm_num) (-915089930106689593950863983873585975) (383376360529195966079857209577184870) (by decide +kernel))

/-- `tests/test_common_utils.py:13-87` (`test_function_cross_section__with_kaon_parameters`): the object is built and the list of results agrees with `expected_values`. -/
example : ∃ p ys, ParamClass.kaon.init utilsFullKw = .ok p ∧
    functionCrossSection [.kaon ⟨1.123, 0⟩ true,
      .kaon ⟨1.123, 0.732⟩ true,
      .row [⟨0, 0.732⟩, 1],
      .kaon ⟨0, -0.732⟩ true,
      .row [⟨1.123, -0.732⟩, 1],
      .row [⟨1.123, 0⟩, 0],
      .kaon ⟨1.123, 0.732⟩ false,
      .kaon ⟨0, 0.732⟩ false,
      .row [⟨0, -0.732⟩, 0],
      .kaon ⟨1.123, -0.732⟩ false]
      0.493677 0.0072973525693 389379.3721 p = .ok ys ∧
    List.Forall₂ (fun (y e : ℝ) => IsClose y e 1e-15) ys
      [1.422899583299445,
       ‖(⟨7.322169806015914, 5.145404160322535⟩ : ℂ)‖,
       ‖(⟨43.88590980666062, -8.017152698541237⟩ : ℂ)‖,
       ‖(⟨43.88590980666064, 8.01715269854124⟩ : ℂ)‖,
       ‖(⟨7.32216980601591, -5.145404160322531⟩ : ℂ)‖,
       0.5325913326692017,
       ‖(⟨1.1155860768607209, 0.7839399239773068⟩ : ℂ)‖,
       ‖(⟨1.5146068572452065, -0.27669095858528914⟩ : ℂ)‖,
       ‖(⟨1.5146068572451994, 0.27669095858528786⟩ : ℂ)‖,
       ‖(⟨1.115586076860725, -0.7839399239773098⟩ : ℂ)‖] :=
  utils_results (c := .kaon) trivial (kw := utilsFullKw) (by decide +kernel) (by decide +kernel) rfl (utilsFull_builds true).1
    (.cons utilsFull_point1 (.cons utilsFull_point2 (.cons utilsFull_point3 (.cons utilsFull_point4 (.cons utilsFull_point5 (.cons utilsFull_point6 (.cons utilsFull_point7 (.cons utilsFull_point8 (.cons utilsFull_point9 (.cons utilsFull_point10 (.nil)))))))))))

/-- The arguments at `tests/test_common_utils.py:105-132` (`test_function_cross_section__with_kaon_parameters_simplified`). -/
noncomputable def utilsSimplifiedKw : List (String × ℝ) := [
  ("t_0_isoscalar", 9 * 0.13957039 ^ 2),
  ("t_0_isovector", 4 * 0.13957039 ^ 2),
  ("t_in_isoscalar", 1.35),
  ("t_in_isovector", 0.59),
  ("a_omega_prime", 0.27),
  ("mass_omega_prime", 1.41),
  ("decay_rate_omega_prime", 0.29),
  ("a_omega_double_prime", 0),
  ("mass_omega_double_prime", 1.67),
  ("decay_rate_omega_double_prime", 0.315),
  ("a_phi", -0.01),
  ("mass_phi", 1.019461),
  ("decay_rate_phi", 0.004249),
  ("a_phi_prime", 0),
  ("mass_phi_prime", 1.68),
  ("decay_rate_phi_prime", 0.15),
  ("mass_phi_double_prime", 2.159),
  ("decay_rate_phi_double_prime", 0.137),
  ("a_rho_prime", 0.1),
  ("mass_rho_prime", 1.465),
  ("decay_rate_rho_prime", 0.4),
  ("a_rho_double_prime", -0.1),
  ("mass_rho_double_prime", 1.57),
  ("decay_rate_rho_double_prime", 0.144),
  ("mass_rho_triple_prime", 1.72),
  ("decay_rate_rho_triple_prime", 0.25)]

/-- The arguments of the model the test is about. -/
noncomputable def utilsSimplified : KaonArgs := .simplified {
  t_0_isoscalar := 9 * 0.13957039 ^ 2,
  t_0_isovector := 4 * 0.13957039 ^ 2,
  t_in_isoscalar := 1.35,
  t_in_isovector := 0.59,
  a_omega_prime := 0.27,
  mass_omega_prime := 1.41,
  decay_rate_omega_prime := 0.29,
  a_omega_double_prime := 0,
  mass_omega_double_prime := 1.67,
  decay_rate_omega_double_prime := 0.315,
  a_phi := -0.01,
  mass_phi := 1.019461,
  decay_rate_phi := 0.004249,
  a_phi_prime := 0,
  mass_phi_prime := 1.68,
  decay_rate_phi_prime := 0.15,
  mass_phi_double_prime := 2.159,
  decay_rate_phi_double_prime := 0.137,
  a_rho_prime := 0.1,
  mass_rho_prime := 1.465,
  decay_rate_rho_prime := 0.4,
  a_rho_double_prime := -0.1,
  mass_rho_double_prime := 1.57,
  decay_rate_rho_double_prime := 0.144,
  mass_rho_triple_prime := 1.72,
  decay_rate_rho_triple_prime := 0.25 }

def utilsSimplifiedS : Ball × Ball × Ball × List ResB :=
  ((ofRat (1753190438827689) 0 10000000000000000), ((ofRat (27) 0 20) - (ofRat (1753190438827689) 0 10000000000000000)).sqrt 1440653184970899183603728118461066399 0, ⟨-247832371716745286972297857258411996, -1, 1048665, false, true⟩,
   [⟨ofRat (27) 0 100, .B, ⟨-710943770123738545956752521075537148, -904633047718628540925415288710310459, 1049286, false, true⟩⟩,
    ⟨ofRat (0) 0 1, .B, ⟨-912807631617739086616464774526727440, -803820261037854062493924385316833651, 1049249, false, true⟩⟩,
    ⟨ofRat (-1) 0 100, .A, ⟨-3669261600014330214803687761183368, -752787831271910252635714324201438225, 3550520, false, true⟩⟩,
    ⟨ofRat (0) 0 1, .B, ⟨-952739317889229460420642199697471671, -846073884138392886619122821889810745, 1049664, false, true⟩⟩,
    ⟨ofRat (6) 0 25, .B, ⟨-1120355748922248667526641588104498976, -666122528897100742498673156050211838, 1049776, false, true⟩⟩])

theorem utilsSimplifiedS_ok : ChanOK (9 * 0.13957039 ^ 2) (1.35) [⟨0.27, 1.41, 0.29⟩, ⟨0, 1.67, 0.315⟩, ⟨-0.01, 1.019461, 0.004249⟩, ⟨0, 1.68, 0.15⟩, ⟨1 / 2 - (0.27 + 0 + (-0.01) + 0), 2.159, 0.137⟩]
    utilsSimplifiedS.1 utilsSimplifiedS.2.1 utilsSimplifiedS.2.2.1 utilsSimplifiedS.2.2.2 := by
  have h0 : Mem (((9 * 0.13957039 ^ 2 : ℝ)) : ℂ) (ofRat (1753190438827689) 0 10000000000000000) := mem_real (by norm_num)
  have hA := mem_sqrt_real (x := 1.35) (y := 9 * 0.13957039 ^ 2) (X := (ofRat (27) 0 20)) (mem_real (by norm_num)) h0 (by norm_num) 1440653184970899183603728118461066399
  refine ⟨h0, hA, (mem_Wval h0 hA mem_zero ⟨0, 556562609311857193495124351664243605, 1239916842900659073109441613283410935, 479012825997015091903916883888108752⟩).within (by decide +kernel), ?_⟩
  exact .cons ⟨mem_real (by norm_num), by norm_num [Res.var], (mem_Wval h0 hA (mem_pole (M := (ofRat (141) 0 100)) (G := (ofRat (29) 0 100)) (mem_real (by norm_num)) (mem_real (by norm_num))) ⟨-1790657509889317814592107813260223416, 201731420106276353553564491030616076, 107160357289406011479105006707254749, 457141841506340677206214697235142666⟩).within (by decide +kernel)⟩ (
    .cons ⟨mem_real (by norm_num), by norm_num [Res.var], (mem_Wval h0 hA (mem_pole (M := (ofRat (167) 0 100)) (G := (ofRat (63) 0 200)) (mem_real (by norm_num)) (mem_real (by norm_num))) ⟨-2149583313345044758590141934475702863, 216193039054698999386561148764745157, 70991655872300577548786696739423644, 599204063895698519034110560965143514⟩).within (by decide +kernel)⟩ (
    .cons ⟨mem_real (by norm_num), by norm_num [Res.var], (mem_Wval h0 hA (mem_pole (M := (ofRat (1019461) 0 1000000)) (G := (ofRat (4249) 0 1000000)) (mem_real (by norm_num)) (mem_real (by norm_num))) ⟨-1235526254381797683692463547797796355, 3097236243293990619359835230797179, 368013258734889265676806360274352800, 2991150249790917553205172248044527⟩).within (by decide +kernel)⟩ (
    .cons ⟨mem_real (by norm_num), by norm_num [Res.var], (mem_Wval h0 hA (mem_pole (M := (ofRat (42) 0 25)) (G := (ofRat (3) 0 20)) (mem_real (by norm_num)) (mem_real (by norm_num))) ⟨-2162786158721047446350845971043458999, 102933306311578783401425018408418797, 33773402072096180631731949060226126, 596967728507704006921201850463961041⟩).within (by decide +kernel)⟩ (
    .cons ⟨mem_real (by norm_num), by norm_num [Res.var], (mem_Wval h0 hA (mem_pole (M := (ofRat (2159) 0 1000)) (G := (ofRat (137) 0 1000)) (mem_real (by norm_num)) (mem_real (by norm_num))) ⟨-2815374285869387502483798893680207883, 92812406503877149602029342374759685, 17243099187661887963906475916234200, 756020866183682009366322260863103519⟩).within (by decide +kernel)⟩ (
    .nil)))))

def utilsSimplifiedV : Ball × Ball × Ball × List ResB :=
  ((ofRat (194798937647521) 0 2500000000000000), ((ofRat (59) 0 100) - (ofRat (194798937647521) 0 2500000000000000)).sqrt 951192827841683612833139530759015150 0, ⟨-250076570451075855049630455198968379, -1, 1048748, false, true⟩,
   [⟨ofRat (1) 0 10, .B, ⟨-1073468223191976296363562837144997028, -597130284549614914403505449315271123, 1049130, false, true⟩⟩,
    ⟨ofRat (-1) 0 10, .B, ⟨-1150149733387952260645811159334779150, -599113589030030801577950389271693587, 1049783, false, true⟩⟩,
    ⟨ofRat (1) 0 2, .B, ⟨-1166033376569217865905787837472295196, -538110302936440158603025875059062367, 1049403, false, true⟩⟩])

theorem utilsSimplifiedV_ok : ChanOK (4 * 0.13957039 ^ 2) (0.59) [⟨0.1, 1.465, 0.4⟩, ⟨-0.1, 1.57, 0.144⟩, ⟨1 / 2 - (0.1 + (-0.1)), 1.72, 0.25⟩]
    utilsSimplifiedV.1 utilsSimplifiedV.2.1 utilsSimplifiedV.2.2.1 utilsSimplifiedV.2.2.2 := by
  have h0 : Mem (((4 * 0.13957039 ^ 2 : ℝ)) : ℂ) (ofRat (194798937647521) 0 2500000000000000) := mem_real (by norm_num)
  have hA := mem_sqrt_real (x := 0.59) (y := 4 * 0.13957039 ^ 2) (X := (ofRat (59) 0 100)) (mem_real (by norm_num)) h0 (by norm_num) 951192827841683612833139530759015150
  refine ⟨h0, hA, (mem_Wval h0 hA mem_zero ⟨0, 371041739541238128996749567776162402, 1238347583894790701530447304062930912, 483055199993042860029651952417247882⟩).within (by decide +kernel), ?_⟩
  exact .cons ⟨mem_real (by norm_num), by norm_num [Res.var], (mem_Wval h0 hA (mem_pole (M := (ofRat (293) 0 200)) (G := (ofRat (2) 0 5)) (mem_real (by norm_num)) (mem_real (by norm_num))) ⟨-1912325686987829905263429869191911005, 270710263164164242132452137022299214, 70503578783532523230694165423481926, 780004104966789556881919320572533372⟩).within (by decide +kernel)⟩ (
    .cons ⟨mem_real (by norm_num), by norm_num [Res.var], (mem_Wval h0 hA (mem_pole (M := (ofRat (157) 0 100)) (G := (ofRat (18) 0 125)) (mem_real (by norm_num)) (mem_real (by norm_num))) ⟨-2053710710382475005604465736498648854, 97250499397431042911601906977482623, 22428838462998119500546470170000956, 806188986320818161243729178689512556⟩).within (by decide +kernel)⟩ (
    .cons ⟨mem_real (by norm_num), by norm_num [Res.var], (mem_Wval h0 hA (mem_pole (M := (ofRat (43) 0 25)) (G := (ofRat (1) 0 4)) (mem_real (by norm_num)) (mem_real (by norm_num))) ⟨-2256127443378672426592955415914324596, 168373519874601437360157331362803947, 32266914268488609139959445690718324, 850166522176744884110888267234819280⟩).within (by decide +kernel)⟩ (
    .nil)))

theorem utilsSimplified_builds (charged : Bool) : utilsSimplified.Builds charged ∧ utilsSimplified.Proper := by
  have hp : utilsSimplified.Proper := by constructor <;> norm_num [utilsSimplified, KaonArgs.t0S, KaonArgs.tinS, KaonArgs.t0V, KaonArgs.tinV]
  refine ⟨builds_of_pos ?_ ?_ hp ?_ ?_, hp⟩ <;>
    simp [utilsSimplified, KaonArgs.t0S, KaonArgs.tinS, KaonArgs.t0V, KaonArgs.tinV, KaonArgs.resS, KaonArgs.resV,
      KaonUAModelSimplified.Args.resS, KaonUAModelSimplified.Args.resV] <;> norm_num

/-- The point at `tests/test_common_utils.py:92`, the value at line 142. -/
theorem utilsSimplified_point1 : UtilsPoint utilsSimplified (.kaon ⟨1.123, 0⟩ true) 2.721106392638103 := by
  have ht : Mem ⟨1.123, 0⟩ (ofRat (1123) (0) 1000) := mem_gauss (by norm_num) (by norm_num)
  obtain ⟨F, h1, h2⟩ := kaon_value (TinS := (ofRat (27) 0 20)) (TinV := (ofRat (59) 0 100))
    (utilsSimplified_builds true).1 (utilsSimplified_builds true).2 utilsSimplifiedS_ok utilsSimplifiedV_ok (by norm_num) ht
    (mem_real (by norm_num [utilsSimplified, KaonArgs.tinS])) (mem_real (by norm_num [utilsSimplified, KaonArgs.tinV]))
    ⟨1293988916359835987343641887319187296, 0, 5739678505774528751415729676730691914, 0⟩
    ⟨1358858815795201590536334799988969926, 0, 0, 3164157439302475453065004558753501802⟩
    (by decide +kernel)
  refine .of_real (by norm_num) rfl (scalar_close (M := (ofRat (493677) 0 1000000)) (AL := (ofRat (72973525693) 0 10000000000000)) (HC := (ofRat (3893793721) 0 10000)) (E := ofRat (2721106392638103) (0) 1000000000000000)
    (F := ⟨2273689923579635234162785492256801481, -143459305044054340388507147897849989, 75077530, false, true⟩) (mem_real (by norm_num)) (mem_real (by norm_num)) (mem_real (by norm_num)) h1
    (h2.within (by decide +kernel)) ht (mem_gauss (by norm_num) (by norm_num)) (by norm_num)
    false (by norm_num) (482763203092702558683897364924339117) (0) (by decide +kernel))

/-- The point at `tests/test_common_utils.py:93`, the value at line 143. -/
theorem utilsSimplified_point2 : UtilsPoint utilsSimplified (.kaon ⟨1.123, 0.732⟩ true) ‖(⟨14.002976557440112, 9.840112390777117⟩ : ℂ)‖ := by
  have ht : Mem ⟨1.123, 0.732⟩ (ofRat (1123) (732) 1000) := mem_gauss (by norm_num) (by norm_num)
  obtain ⟨F, h1, h2⟩ := kaon_value (TinS := (ofRat (27) 0 20)) (TinV := (ofRat (59) 0 100))
    (utilsSimplified_builds true).1 (utilsSimplified_builds true).2 utilsSimplifiedS_ok utilsSimplifiedV_ok (by norm_num) ht
    (mem_real (by norm_num [utilsSimplified, KaonArgs.tinS])) (mem_real (by norm_num [utilsSimplified, KaonArgs.tinV]))
    ⟨1376616395903759889981525513714972579, 469750344128617722367765046807217022, 2272426137784735990267151410968463557, 2341018961740024048608601744424158938⟩
    ⟨1431936471523139019151464277989135164, 451602454835887617641556104499009357, 712840316189559581398627019339223103, 2447277295918731188752191142051871136⟩
    (by decide +kernel)
  refine .of_norm rfl (scalar_close (M := (ofRat (493677) 0 1000000)) (AL := (ofRat (72973525693) 0 10000000000000)) (HC := (ofRat (3893793721) 0 10000)) (E := ofRat (14002976557440112) (9840112390777117) 1000000000000000)
    (F := ⟨1978019621482599631116254470894847676, 759346467164625643021372559240171195, 103048928, false, true⟩) (mem_real (by norm_num)) (mem_real (by norm_num)) (mem_real (by norm_num)) h1
    (h2.within (by decide +kernel)) ht (mem_gauss (by norm_num) (by norm_num)) (by norm_num)
    false (by norm_num) (915089930106689593950863983873585976) (383376360529195966079857209577184871) (by decide +kernel))

/-- The point at `tests/test_common_utils.py:94`, the value at line 144. -/
theorem utilsSimplified_point3 : UtilsPoint utilsSimplified (.row [⟨0, 0.732⟩, 1]) ‖(⟨59.78991299967486, -10.9225230709046⟩ : ℂ)‖ := by
  have ht : Mem ⟨0, 0.732⟩ (ofRat (0) (183) 250) := mem_gauss (by norm_num) (by norm_num)
  obtain ⟨F, h1, h2⟩ := kaon_value (TinS := (ofRat (27) 0 20)) (TinV := (ofRat (59) 0 100))
    (utilsSimplified_builds true).1 (utilsSimplified_builds true).2 utilsSimplifiedS_ok utilsSimplifiedV_ok (by norm_num) ht
    (mem_real (by norm_num [utilsSimplified, KaonArgs.tinS])) (mem_real (by norm_num [utilsSimplified, KaonArgs.tinV]))
    ⟨714194626345812786224259222125644442, 905447901530098047837250142545472662, 1505829821051783706419940459957451710, 1135774419911208825736432207142643458⟩
    ⟨762550607485089477571638004818385680, 848030306921673050452291716015620387, 1216961887698233334185860137759381858, 1551685897997275864781929195765886372⟩
    (by decide +kernel)
  refine .of_norm row_charged (scalar_close (M := (ofRat (493677) 0 1000000)) (AL := (ofRat (72973525693) 0 10000000000000)) (HC := (ofRat (3893793721) 0 10000)) (E := ofRat (2989495649983743) (-546126153545230) 50000000000000)
    (F := ⟨1260311575431059786462418365809881862, 309859519907510563375412030766455707, 52373993, false, true⟩) (mem_real (by norm_num)) (mem_real (by norm_num)) (mem_real (by norm_num)) h1
    (h2.within (by decide +kernel)) ht (mem_gauss (by norm_num) (by norm_num)) (by norm_num)
    false (by norm_num) (1534504253454742830334636586685697847) (766717835381643703917071483810931098) (by decide +kernel))

/-- The point at `tests/test_common_utils.py:95`, the value at line 145. -/
theorem utilsSimplified_point4 : UtilsPoint utilsSimplified (.kaon ⟨0, -0.732⟩ true) ‖(⟨59.78991299967489, 10.922523070904605⟩ : ℂ)‖ := by
  have ht : Mem ⟨0, -0.732⟩ (ofRat (0) (-183) 250) := mem_gauss (by norm_num) (by norm_num)
  obtain ⟨F, h1, h2⟩ := kaon_value (TinS := (ofRat (27) 0 20)) (TinV := (ofRat (59) 0 100))
    (utilsSimplified_builds true).1 (utilsSimplified_builds true).2 utilsSimplifiedS_ok utilsSimplifiedV_ok (by norm_num) ht
    (mem_real (by norm_num [utilsSimplified, KaonArgs.tinS])) (mem_real (by norm_num [utilsSimplified, KaonArgs.tinV]))
    ⟨-714194626345812786224259222125644442, 905447901530098047837250142545472662, 747875130582915868048058253637525879, 564085948311565785992708044352451194⟩
    ⟨-762550607485089477571638004818385680, 848030306921673050452291716015620388, 552928103422548275351219154476694069, 705010361754152213350237966932700884⟩
    (by decide +kernel)
  refine .of_norm rfl (scalar_close (M := (ofRat (493677) 0 1000000)) (AL := (ofRat (72973525693) 0 10000000000000)) (HC := (ofRat (3893793721) 0 10000)) (E := ofRat (11957982599934978) (2184504614180921) 200000000000000)
    (F := ⟨1260311575431059786462418365809881861, -309859519907510563375412030766455715, 51727152, false, true⟩) (mem_real (by norm_num)) (mem_real (by norm_num)) (mem_real (by norm_num)) h1
    (h2.within (by decide +kernel)) ht (mem_gauss (by norm_num) (by norm_num)) (by norm_num)
    true (by norm_num) (-1534504253454742830334636586685697847) (766717835381643703917071483810931096) (by decide +kernel))

/-- The point at `tests/test_common_utils.py:96`, the value at line 146. -/
theorem utilsSimplified_point5 : UtilsPoint utilsSimplified (.kaon ⟨1.123, -0.732⟩ true) ‖(⟨14.002976557440086, -9.840112390777097⟩ : ℂ)‖ := by
  have ht : Mem ⟨1.123, -0.732⟩ (ofRat (1123) (-732) 1000) := mem_gauss (by norm_num) (by norm_num)
  obtain ⟨F, h1, h2⟩ := kaon_value (TinS := (ofRat (27) 0 20)) (TinV := (ofRat (59) 0 100))
    (utilsSimplified_builds true).1 (utilsSimplified_builds true).2 utilsSimplifiedS_ok utilsSimplifiedV_ok (by norm_num) ht
    (mem_real (by norm_num [utilsSimplified, KaonArgs.tinS])) (mem_real (by norm_num [utilsSimplified, KaonArgs.tinV]))
    ⟨-1376616395903759889981525513714972579, 469750344128617722367765046807217023, 377200294867007252589143669151929946, 388586026174832190343381269271726670⟩
    ⟨-1431936471523139019151464277989135164, 451602454835887617641556104499009357, 193846423966880534633589987405852248, 665501012632163227055446252713010639⟩
    (by decide +kernel)
  refine .of_norm rfl (scalar_close (M := (ofRat (493677) 0 1000000)) (AL := (ofRat (72973525693) 0 10000000000000)) (HC := (ofRat (3893793721) 0 10000)) (E := ofRat (14002976557440086) (-9840112390777097) 1000000000000000)
    (F := ⟨1978019621482599631116254470894847672, -759346467164625643021372559240171209, 102253509, false, true⟩) (mem_real (by norm_num)) (mem_real (by norm_num)) (mem_real (by norm_num)) h1
    (h2.within (by decide +kernel)) ht (mem_gauss (by norm_num) (by norm_num)) (by norm_num)
    true (by norm_num) (-915089930106689593950863983873585975) (383376360529195966079857209577184870) (by decide +kernel))

/-- The point at `tests/test_common_utils.py:97`, the value at line 147. -/
theorem utilsSimplified_point6 : UtilsPoint utilsSimplified (.row [⟨1.123, 0⟩, 0]) 0.08305375738667582 := by
  have ht : Mem ⟨1.123, 0⟩ (ofRat (1123) (0) 1000) := mem_gauss (by norm_num) (by norm_num)
  obtain ⟨F, h1, h2⟩ := kaon_value (TinS := (ofRat (27) 0 20)) (TinV := (ofRat (59) 0 100))
    (utilsSimplified_builds false).1 (utilsSimplified_builds false).2 utilsSimplifiedS_ok utilsSimplifiedV_ok (by norm_num) ht
    (mem_real (by norm_num [utilsSimplified, KaonArgs.tinS])) (mem_real (by norm_num [utilsSimplified, KaonArgs.tinV]))
    ⟨1293988916359835987343641887319187296, 0, 5739678505774528751415729676730691914, 0⟩
    ⟨1358858815795201590536334799988969926, 0, 0, 3164157439302475453065004558753501802⟩
    (by decide +kernel)
  refine .of_real (by norm_num) row_neutral (scalar_close (M := (ofRat (493677) 0 1000000)) (AL := (ofRat (72973525693) 0 10000000000000)) (HC := (ofRat (3893793721) 0 10000)) (E := ofRat (4152687869333791) (0) 50000000000000000)
    (F := ⟨365030110120274989988271481082257495, 158650568866518010126001516023659673, 75077530, false, true⟩) (mem_real (by norm_num)) (mem_real (by norm_num)) (mem_real (by norm_num)) h1
    (h2.within (by decide +kernel)) ht (mem_gauss (by norm_num) (by norm_num)) (by norm_num)
    false (by norm_num) (482763203092702558683897364924339117) (0) (by decide +kernel))

/-- The point at `tests/test_common_utils.py:98`, the value at line 148. -/
theorem utilsSimplified_point7 : UtilsPoint utilsSimplified (.row [⟨1.123, 0.732⟩, 0]) ‖(⟨0.1432413591144838, 0.10065796132075078⟩ : ℂ)‖ := by
  have ht : Mem ⟨1.123, 0.732⟩ (ofRat (1123) (732) 1000) := mem_gauss (by norm_num) (by norm_num)
  obtain ⟨F, h1, h2⟩ := kaon_value (TinS := (ofRat (27) 0 20)) (TinV := (ofRat (59) 0 100))
    (utilsSimplified_builds false).1 (utilsSimplified_builds false).2 utilsSimplifiedS_ok utilsSimplifiedV_ok (by norm_num) ht
    (mem_real (by norm_num [utilsSimplified, KaonArgs.tinS])) (mem_real (by norm_num [utilsSimplified, KaonArgs.tinV]))
    ⟨1376616395903759889981525513714972579, 469750344128617722367765046807217022, 2272426137784735990267151410968463557, 2341018961740024048608601744424158938⟩
    ⟨1431936471523139019151464277989135164, 451602454835887617641556104499009357, 712840316189559581398627019339223103, 2447277295918731188752191142051871136⟩
    (by decide +kernel)
  refine .of_norm row_neutral (scalar_close (M := (ofRat (493677) 0 1000000)) (AL := (ofRat (72973525693) 0 10000000000000)) (HC := (ofRat (3893793721) 0 10000)) (E := ofRat (7162067955724190) (5032898066037539) 50000000000000000)
    (F := ⟨-62798093788399524597949926744978818, 204884554173060084919317519601338879, 103048928, false, true⟩) (mem_real (by norm_num)) (mem_real (by norm_num)) (mem_real (by norm_num)) h1
    (h2.within (by decide +kernel)) ht (mem_gauss (by norm_num) (by norm_num)) (by norm_num)
    false (by norm_num) (915089930106689593950863983873585976) (383376360529195966079857209577184871) (by decide +kernel))

/-- The point at `tests/test_common_utils.py:99`, the value at line 149. -/
theorem utilsSimplified_point8 : UtilsPoint utilsSimplified (.row [⟨0, 0.732⟩, 0]) ‖(⟨0.029289844333965784, -0.005350718615072836⟩ : ℂ)‖ := by
  have ht : Mem ⟨0, 0.732⟩ (ofRat (0) (183) 250) := mem_gauss (by norm_num) (by norm_num)
  obtain ⟨F, h1, h2⟩ := kaon_value (TinS := (ofRat (27) 0 20)) (TinV := (ofRat (59) 0 100))
    (utilsSimplified_builds false).1 (utilsSimplified_builds false).2 utilsSimplifiedS_ok utilsSimplifiedV_ok (by norm_num) ht
    (mem_real (by norm_num [utilsSimplified, KaonArgs.tinS])) (mem_real (by norm_num [utilsSimplified, KaonArgs.tinV]))
    ⟨714194626345812786224259222125644442, 905447901530098047837250142545472662, 1505829821051783706419940459957451710, 1135774419911208825736432207142643458⟩
    ⟨762550607485089477571638004818385680, 848030306921673050452291716015620387, 1216961887698233334185860137759381858, 1551685897997275864781929195765886372⟩
    (by decide +kernel)
  refine .of_norm row_neutral (scalar_close (M := (ofRat (493677) 0 1000000)) (AL := (ofRat (72973525693) 0 10000000000000)) (HC := (ofRat (3893793721) 0 10000)) (E := ofRat (7322461083491446) (-1337679653768209) 250000000000000000)
    (F := ⟨-22043409267166742571117035664717144, 18418469408540833285220746461439311, 52373993, false, true⟩) (mem_real (by norm_num)) (mem_real (by norm_num)) (mem_real (by norm_num)) h1
    (h2.within (by decide +kernel)) ht (mem_gauss (by norm_num) (by norm_num)) (by norm_num)
    false (by norm_num) (1534504253454742830334636586685697847) (766717835381643703917071483810931098) (by decide +kernel))

/-- The point at `tests/test_common_utils.py:100`, the value at line 150. -/
theorem utilsSimplified_point9 : UtilsPoint utilsSimplified (.row [⟨0, -0.732⟩, 0]) ‖(⟨0.029289844333966465, 0.00535071861507296⟩ : ℂ)‖ := by
  have ht : Mem ⟨0, -0.732⟩ (ofRat (0) (-183) 250) := mem_gauss (by norm_num) (by norm_num)
  obtain ⟨F, h1, h2⟩ := kaon_value (TinS := (ofRat (27) 0 20)) (TinV := (ofRat (59) 0 100))
    (utilsSimplified_builds false).1 (utilsSimplified_builds false).2 utilsSimplifiedS_ok utilsSimplifiedV_ok (by norm_num) ht
    (mem_real (by norm_num [utilsSimplified, KaonArgs.tinS])) (mem_real (by norm_num [utilsSimplified, KaonArgs.tinV]))
    ⟨-714194626345812786224259222125644442, 905447901530098047837250142545472662, 747875130582915868048058253637525879, 564085948311565785992708044352451194⟩
    ⟨-762550607485089477571638004818385680, 848030306921673050452291716015620388, 552928103422548275351219154476694069, 705010361754152213350237966932700884⟩
    (by decide +kernel)
  refine .of_norm row_neutral (scalar_close (M := (ofRat (493677) 0 1000000)) (AL := (ofRat (72973525693) 0 10000000000000)) (HC := (ofRat (3893793721) 0 10000)) (E := ofRat (5857968866793293) (1070143723014592) 200000000000000000)
    (F := ⟨-22043409267166742571117035664717143, -18418469408540833285220746461439313, 51727152, false, true⟩) (mem_real (by norm_num)) (mem_real (by norm_num)) (mem_real (by norm_num)) h1
    (h2.within (by decide +kernel)) ht (mem_gauss (by norm_num) (by norm_num)) (by norm_num)
    true (by norm_num) (-1534504253454742830334636586685697847) (766717835381643703917071483810931096) (by decide +kernel))

/-- The point at `tests/test_common_utils.py:101`, the value at line 151. -/
theorem utilsSimplified_point10 : UtilsPoint utilsSimplified (.kaon ⟨1.123, -0.732⟩ false) ‖(⟨0.1432413591144833, -0.10065796132075043⟩ : ℂ)‖ := by
  have ht : Mem ⟨1.123, -0.732⟩ (ofRat (1123) (-732) 1000) := mem_gauss (by norm_num) (by norm_num)
  obtain ⟨F, h1, h2⟩ := kaon_value (TinS := (ofRat (27) 0 20)) (TinV := (ofRat (59) 0 100))
    (utilsSimplified_builds false).1 (utilsSimplified_builds false).2 utilsSimplifiedS_ok utilsSimplifiedV_ok (by norm_num) ht
    (mem_real (by norm_num [utilsSimplified, KaonArgs.tinS])) (mem_real (by norm_num [utilsSimplified, KaonArgs.tinV]))
    ⟨-1376616395903759889981525513714972579, 469750344128617722367765046807217023, 377200294867007252589143669151929946, 388586026174832190343381269271726670⟩
    ⟨-1431936471523139019151464277989135164, 451602454835887617641556104499009357, 193846423966880534633589987405852248, 665501012632163227055446252713010639⟩
    (by decide +kernel)
  refine .of_norm rfl (scalar_close (M := (ofRat (493677) 0 1000000)) (AL := (ofRat (72973525693) 0 10000000000000)) (HC := (ofRat (3893793721) 0 10000)) (E := ofRat (14324135911448330) (-10065796132075043) 100000000000000000)
    (F := ⟨-62798093788399524597949926744978822, -204884554173060084919317519601338883, 102253509, false, true⟩) (mem_real (by norm_num)) (mem_real (by norm_num)) (mem_real (by norm_num)) h1
    (h2.within (by decide +kernel)) ht (mem_gauss (by norm_num) (by norm_num)) (by norm_num)
    true (by norm_num) (-915089930106689593950863983873585975) (383376360529195966079857209577184870) (by decide +kernel))

/-- `tests/test_common_utils.py:89-156` (`test_function_cross_section__with_kaon_parameters_simplified`): the object is built and the list of results agrees with `expected_values`. -/
example : ∃ p ys, ParamClass.kaonSimplified.init utilsSimplifiedKw = .ok p ∧
    functionCrossSection [.kaon ⟨1.123, 0⟩ true,
      .kaon ⟨1.123, 0.732⟩ true,
      .row [⟨0, 0.732⟩, 1],
      .kaon ⟨0, -0.732⟩ true,
      .kaon ⟨1.123, -0.732⟩ true,
      .row [⟨1.123, 0⟩, 0],
      .row [⟨1.123, 0.732⟩, 0],
      .row [⟨0, 0.732⟩, 0],
      .row [⟨0, -0.732⟩, 0],
      .kaon ⟨1.123, -0.732⟩ false]
      0.493677 0.0072973525693 389379.3721 p = .ok ys ∧
    List.Forall₂ (fun (y e : ℝ) => IsClose y e 1e-15) ys
      [2.721106392638103,
       ‖(⟨14.002976557440112, 9.840112390777117⟩ : ℂ)‖,
       ‖(⟨59.78991299967486, -10.9225230709046⟩ : ℂ)‖,
       ‖(⟨59.78991299967489, 10.922523070904605⟩ : ℂ)‖,
       ‖(⟨14.002976557440086, -9.840112390777097⟩ : ℂ)‖,
       0.08305375738667582,
       ‖(⟨0.1432413591144838, 0.10065796132075078⟩ : ℂ)‖,
       ‖(⟨0.029289844333965784, -0.005350718615072836⟩ : ℂ)‖,
       ‖(⟨0.029289844333966465, 0.00535071861507296⟩ : ℂ)‖,
       ‖(⟨0.1432413591144833, -0.10065796132075043⟩ : ℂ)‖] :=
  utils_results (c := .kaonSimplified) trivial (kw := utilsSimplifiedKw) (by decide +kernel) (by decide +kernel) rfl (utilsSimplified_builds true).1
    (.cons utilsSimplified_point1 (.cons utilsSimplified_point2 (.cons utilsSimplified_point3 (.cons utilsSimplified_point4 (.cons utilsSimplified_point5 (.cons utilsSimplified_point6 (.cons utilsSimplified_point7 (.cons utilsSimplified_point8 (.cons utilsSimplified_point9 (.cons utilsSimplified_point10 (.nil)))))))))))

end Conformance
end UA
