import Verif.Props.ObsMomentum
/-!
C87 the linear and the angular momentum: totals over the collected patches, agreement of the ways to compute them.
-/
namespace Elliptica.Obs
open Elliptica.Adm Elliptica.DiffGeom Elliptica.Gen Elliptica.Gen.Obs Elliptica.Fields Elliptica.Conformal Elliptica.Extrinsic Elliptica.Constraints
open Elliptica.ObsSpec

/-- surfaces only: the sum of the surface integrals; a volume among the items is undefined behaviour -/
theorem integralS_ok (items : List Item) (h0 : items ≠ []) (fS : In → ℝ) :
    ((∃ a ∈ items, a.surf = false) → ¬ ∃ m, integralS items fS = .ok m) ∧
    ∀ vals, List.Forall₂ (fun a v => a.surf = true ∧ a.onS fS = .ok v) items vals → integralS items fS = .ok vals.sum := by
  unfold integralS
  rw [if_neg h0]
  clear h0
  constructor
  · rintro ⟨a, ha, hs⟩
    have : ∀ acc, ¬ ∃ m, loopS fS items acc = .ok m := by
      induction items with
      | nil => simp at ha
      | cons b t ih =>
        rintro acc ⟨m, hm⟩
        unfold loopS at hm
        rcases List.mem_cons.1 ha with e | e
        · rw [← e, hs] at hm; simp at hm
        · by_cases hb : b.surf = true
          · rw [if_pos hb] at hm
            cases hx : b.onS fS with
            | ok v => rw [hx, Res.bind_ok] at hm; exact ih e _ ⟨m, hm⟩
            | abort => rw [hx] at hm; simp [Res.bind] at hm
            | ub => rw [hx] at hm; simp [Res.bind] at hm
          · rw [if_neg hb] at hm; cases hm
    exact this 0
  · intro vals hv
    have : ∀ acc, loopS fS items acc = .ok (acc + vals.sum) := by
      induction hv with
      | nil => intro acc; simp [loopS]
      | @cons a v t vt hav _ ih =>
        intro acc
        unfold loopS
        rw [if_pos hav.1, hav.2, Res.bind_ok, ih, List.sum_cons, add_assoc]
    simpa using this 0

/-- the values of the integrals over the items -/
def Vals (fS fV : In → ℝ) (items : List Item) (vals : List ℝ) : Prop := List.Forall₂ (Item.Val fS fV) items vals

/-- the node belongs to a slice with exact derivatives -/
def OnSlice (x : In) (s : Slice) (p : Pt) : Prop := s.Good p ∧ At s p x

/-- the momentum constraint in vacuum holds at the node -/
def Vacuum (s : Slice) (p : Pt) : Prop :=
  ∀ i, divT (fun i j k => s.gconn i j k p) (fun i j => s.KK i j p) (fun i j k => pd (s.KK i j) k p) i = ∑ l, s.gamI i l p * pd s.K l p

/-- C87: what the four ways to compute the linear momentum return: the sum of the integrals over 8π -/
theorem C87_P_total (items : List Item) (h0 : items ≠ []) (a : Fin 3) (vals : List ℝ) :
    (List.Forall₂ (fun b v => b.surf = true ∧ b.onS (comp P.out_obs__Pn_D a) = .ok v) items vals → admP .dflt items a = .ok (vals.sum / (8 * Real.pi))) ∧
    (Vals (comp PRashti.out_obs__Pin_D a) (comp PRashti.out_obs__DPi_D a) items vals → admP .rashti items a = .ok (vals.sum / (8 * Real.pi))) ∧
    (Vals (comp PConstr.out_obs__Ps_D a) (comp PConstr.out_obs__Pv_D a) items vals → admP .constraint items a = .ok (vals.sum / (8 * Real.pi))) ∧
    (Vals (comp POss.out_obs__P_U a) (comp POss.out_obs__G_U a) items vals → admP .ossokine items a =
      .ok ((List.zipWith (fun (b : Item) v => if b.surf then v else -v) items vals).sum / (8 * Real.pi))) := by
  have z : ∀ (l : List Item) (w : List ℝ) (R : Item → ℝ → Prop), List.Forall₂ R l w →
      (List.zipWith (fun (b : Item) v => (if (if b.surf then true else true) = true then (1 : ℝ) else -1) * v) l w) = w := by
    intro l w R h
    induction h with
    | nil => rfl
    | cons _ _ ih => rw [List.zipWith_cons_cons, ih]; simp
  refine ⟨fun h => ?_, fun h => ?_, fun h => ?_, fun h => ?_⟩ <;> unfold admP <;> dsimp only
  · rw [(integralS_ok items h0 _).2 vals h, Res.bind_ok]
  · rw [C86_integral items h0 _ _ true true vals h, Res.bind_ok, z _ _ _ h]
  · rw [C86_integral items h0 _ _ true true vals h, Res.bind_ok, z _ _ _ h]
  · rw [C86_integral items h0 _ _ true false vals h, Res.bind_ok]
    congr 4
    funext b v
    cases b.surf <;> simp

/-- C87: what the three ways to compute the angular momentum return -/
theorem C87_J_total (items : List Item) (h0 : items ≠ []) (a : Fin 3) (vals : List ℝ) :
    (List.Forall₂ (fun b v => b.surf = true ∧ b.onS (comp J.out_obs__Jn_D a) = .ok v) items vals → admJ .dflt items a = .ok (vals.sum / (8 * Real.pi))) ∧
    (Vals (comp JConstr.out_obs__Js_D a) (comp JConstr.out_obs__Jv_D a) items vals → admJ .constraint items a = .ok (vals.sum / (8 * Real.pi))) ∧
    (List.Forall₂ (fun b v => b.surf = true ∧ b.onS (comp JOss.out_obs__Jn_U a) = .ok v) items vals → admJ .ossokine items a = .ok (vals.sum / (8 * Real.pi))) := by
  have z : ∀ (l : List Item) (w : List ℝ) (R : Item → ℝ → Prop), List.Forall₂ R l w →
      (List.zipWith (fun (b : Item) v => (if (if b.surf then true else true) = true then (1 : ℝ) else -1) * v) l w) = w := by
    intro l w R h
    induction h with
    | nil => rfl
    | cons _ _ ih => rw [List.zipWith_cons_cons, ih]; simp
  refine ⟨fun h => ?_, fun h => ?_, fun h => ?_⟩ <;> unfold admJ <;> dsimp only
  · rw [(integralS_ok items h0 _).2 vals h, Res.bind_ok]
  · rw [C86_integral items h0 _ _ true true vals h, Res.bind_ok, z _ _ _ h]
  · rw [(integralS_ok items h0 _).2 vals h, Res.bind_ok]

/-- integrands equal at the nodes have equal integrals -/
theorem vals_congr (items : List Item) (hok : ∀ a ∈ items, a.Ok) (fS fS' fV fV' : In → ℝ)
    (eS : ∀ a ∈ items, a.surf = true → ∀ l < a.nn, fS' (a.x l) = fS (a.x l))
    (eV : ∀ a ∈ items, a.surf = false → ∀ l < a.nn, fV' (a.x l) = fV (a.x l)) :
    ∃ vals, Vals fS fV items vals ∧ Vals fS' fV' items vals := by
  induction items with
  | nil => exact ⟨[], .nil, .nil⟩
  | cons a t ih =>
    obtain ⟨vt, i1, i2⟩ := ih (fun b hb => hok b (List.mem_cons_of_mem _ hb)) (fun b hb => eS b (List.mem_cons_of_mem _ hb))
      (fun b hb => eV b (List.mem_cons_of_mem _ hb))
    have hk : ∃ v, Item.Val fS fV a v ∧ Item.Val fS' fV' a v := by
      by_cases hs : a.surf = true
      · obtain ⟨v, h1, h2⟩ := onS_scale a hs (hok a List.mem_cons_self) fS fS' 1 (fun l hl => by rw [eS a List.mem_cons_self hs l hl, one_mul])
        rw [one_mul] at h2
        exact ⟨v, by simp [Item.Val, hs, h1], by simp [Item.Val, hs, h2]⟩
      · have hs' : a.surf = false := by simpa using hs
        obtain ⟨v, h1, h2⟩ := onV_scale a (hok a List.mem_cons_self) fV fV' 1 (fun l hl => by rw [eV a List.mem_cons_self hs' l hl, one_mul])
        rw [one_mul] at h2
        exact ⟨v, by simp [Item.Val, hs', h1], by simp [Item.Val, hs', h2]⟩
    obtain ⟨v, j1, j2⟩ := hk
    exact ⟨v :: vt, .cons j1 i1, .cons j2 i2⟩

theorem vacuum_zero (s : Slice) (p : Pt) (G : s.Good p) (V : Vacuum s p) (j : Fin 3) : mixedDiv s.gconn (PiM s) p j = 0 := by
  rw [C87_momentum G j]
  simp [V _]

/-- C87: when the momentum constraint holds at the nodes of the volume, without matter there, "Rashti" and "constraint" return the
same linear momentum, exactly; on surfaces alone both return what the default way returns -/
theorem C87_P_agree (items : List Item) (h0 : items ≠ []) (hok : ∀ a ∈ items, a.Ok)
    (hon : ∀ a ∈ items, ∀ l < a.nn, ∃ s p, OnSlice (a.x l) s p ∧ (a.surf = false → Vacuum s p)) (a : Fin 3) :
    (∃ v, admP .rashti items a = .ok v ∧ admP .constraint items a = .ok v) ∧
    ((∀ b ∈ items, b.surf = true) → ∃ v, admP .dflt items a = .ok v ∧ admP .rashti items a = .ok v ∧ admP .constraint items a = .ok v) := by
  obtain ⟨vals, v1, v2⟩ := vals_congr items hok (comp PRashti.out_obs__Pin_D a) (comp PConstr.out_obs__Ps_D a) (comp PRashti.out_obs__DPi_D a)
    (comp PConstr.out_obs__Pv_D a)
    (fun b hb _ l hl => by
      obtain ⟨s, p, ⟨G, X⟩, _⟩ := hon b hb l hl
      unfold comp
      rw [(C87_Rashti G X a).1, (C87_constraint G X a).1])
    (fun b hb hs l hl => by
      obtain ⟨s, p, ⟨G, X⟩, V⟩ := hon b hb l hl
      unfold comp
      rw [(C87_Rashti G X a).2, (C87_constraint G X a).2, vacuum_zero s p G (V hs), sub_zero])
  refine ⟨⟨_, (C87_P_total items h0 a vals).2.1 v1, (C87_P_total items h0 a vals).2.2.1 v2⟩, fun hS => ?_⟩
  refine ⟨_, (C87_P_total items h0 a vals).1 ?_, (C87_P_total items h0 a vals).2.1 v1, (C87_P_total items h0 a vals).2.2.1 v2⟩
  obtain ⟨w, w1, w2⟩ := vals_congr items hok (comp PRashti.out_obs__Pin_D a) (comp P.out_obs__Pn_D a) (fun _ => 0) (fun _ => 0)
    (fun b hb _ l hl => by
      obtain ⟨s, p, ⟨G, X⟩, _⟩ := hon b hb l hl
      unfold comp
      rw [(C87_Rashti G X a).1, C87_P G X a]; rfl)
    (fun _ _ _ _ _ => rfl)
  have : w = vals := by
    clear h0 hok hon v2 w2
    induction v1 generalizing w with
    | nil => cases w1; rfl
    | @cons b v t vt hv _ ih =>
      cases w1 with
      | cons hw w1 =>
        have hb := hS b List.mem_cons_self
        simp only [Item.Val, hb, if_true] at hv hw
        rw [hv] at hw
        cases hw
        rw [ih (fun b hb => hS b (List.mem_cons_of_mem _ hb)) _ w1]
  subst this
  clear h0 hok hon v1 v2 w1
  induction w2 with
  | nil => exact .nil
  | @cons b v t vt hv _ ih =>
    have hb := hS b List.mem_cons_self
    simp only [Item.Val, hb, if_true] at hv
    exact .cons ⟨hb, hv⟩ (ih fun b hb => hS b (List.mem_cons_of_mem _ hb))

/-- C87: on surfaces alone the default way and "constraint" return the same angular momentum about the centre of mass -/
theorem C87_J_agree (items : List Item) (h0 : items ≠ []) (hok : ∀ a ∈ items, a.Ok) (hS : ∀ b ∈ items, b.surf = true)
    (hon : ∀ a ∈ items, ∀ l < a.nn, ∃ s p, ∃ c : Fin 3 → ℝ, OnSlice (a.x l) s p ∧ (∀ i, (a.x l).xi_U i = p i - c i) ∧ (∀ i, (a.x l).x_xCM_U i = p i - c i))
    (a : Fin 3) : ∃ v, admJ .dflt items a = .ok v ∧ admJ .constraint items a = .ok v := by
  obtain ⟨vals, v1, v2⟩ := vals_congr items hok (comp JConstr.out_obs__Js_D a) (comp J.out_obs__Jn_D a) (comp JConstr.out_obs__Jv_D a) (fun _ => 0)
    (fun b hb _ l hl => by
      obtain ⟨s, p, c, ⟨G, X⟩, e1, e2⟩ := hon b hb l hl
      unfold comp
      rw [(C87_J_constraint G X c e2 a).1, C87_J G X a, show (b.x l).xi_U = fun i => p i - c i from funext e1])
    (fun b hb hs => by rw [hS b hb] at hs; cases hs)
  refine ⟨_, (C87_J_total items h0 a vals).1 ?_, (C87_J_total items h0 a vals).2.1 v1⟩
  clear h0 hok hon v1
  induction v2 with
  | nil => exact .nil
  | @cons b v t vt hv _ ih =>
    have hb := hS b List.mem_cons_self
    simp only [Item.Val, hb, if_true] at hv
    exact .cons ⟨hb, hv⟩ (ih fun b hb => hS b (List.mem_cons_of_mem _ hb))

/-- a conformally flat slice with ψ = 1 + x², a constant A^{ij} = diag(1,-1,0) and K = 0: the momentum constraint holds -/
noncomputable def vac : Slice where
  psi := fun q => 1 + q 0 ^ 2
  g := fun i j _ => if i = j then 1 else 0
  h := fun i j _ => if i = j then 1 else 0
  A := fun i j _ => if i = j then (![1, -1, 0] : Fin 3 → ℝ) i else 0
  K := fun _ => 0

theorem pd_zero (c : ℝ) (m : Fin 3) : pd (fun _ : Pt => c) m = fun _ => 0 := funext fun q => pd_const c m q

theorem vac_good (p : Pt) : vac.Good p where
  psi0 := fun q => demo_pos _
  gs := fun q i j => by simp only [vac, eq_comm]
  hs := fun q i j => by simp only [vac, eq_comm]
  inv := fun q i j => by fin_cases i <;> fin_cases j <;> simp [vac]
  As := fun q i j => by
    by_cases e : i = j
    · subst e; rfl
    · simp [vac, e, Ne.symm e]
  dpsi := demo_dpsi
  dg := fun i j q => diff_const _ q
  ddpsi := fun i => demo_ddpsi i p
  ddg := fun i j k => by simp only [vac, pd_zero]; exact diff_const 0 p
  dh := fun i j => diff_const _ p
  dA := fun i j => diff_const _ p
  dK := diff_const 0 p
  psi2 := fun i j => by
    show pd (pd (fun q : Pt => 1 + q 0 ^ 2) i) j p = pd (pd (fun q : Pt => 1 + q 0 ^ 2) j) i p
    rw [demo_psi2, demo_psi2]; simp only [and_comm]
  g2 := fun i j k l => by simp only [vac, pd_zero]

theorem vac_conn (p : Pt) (i j k : Fin 3) : vac.conn i j k p = 0 := by
  simp [Slice.conn, christoffel, vac, pd_zero]

theorem vac_tr (p : Pt) : ∑ i, ∑ j, vac.g i j p * vac.A i j p = 0 := by
  simp [vac, Fin.sum_univ_three]

theorem vac_vacuum (p : Pt) : Vacuum vac p := by
  intro i
  have G := vac_good p
  have M : divT (fun i j k => vac.gconn i j k p) (fun i j => vac.KK i j p) (fun i j k => pd (vac.KK i j) k p) i =
      divT (fun i j k => vac.conn i j k p) (fun i j => vac.A i j p) (fun i j k => pd (vac.A i j) k p) i / vac.psi p ^ 10 + (∑ j, vac.h i j p * pd vac.K j p) / vac.psi p ^ 4 / 3 := by
    rw [← div_phys G.compat (vac.psi p) (fun i => pd vac.psi i p) (fun i j => vac.A i j p) (fun i j k => pd (vac.A i j) k p) (vac.K p) (fun i => pd vac.K i p) (G.psi0 p) (G.As p) (vac_tr p) i]
    simp only [G.gconn_eq, KK_pd G]
    rfl
  rw [M]
  have d : ∀ i j k, pd (vac.A i j) k p = 0 := fun i j k => pd_const _ k p
  have dK : ∀ l, pd vac.K l p = 0 := fun l => pd_const 0 l p
  simp [divT, vac_conn, d, dK]

/-- C87 violated: "Ossokine" with an inner volume.  The integrals are taken with the physical metric, for which the divergence of
P^{ij} is not minus the G^i integrated: on a slice where the momentum constraint holds, and within the cut-off, the two differ, by
the term Γ^k_kj P^ij; the momentum returned depends on the surface -/
theorem C87_Ossokine_violation : ∃ (s : Slice) (p : Pt) (x : In), s.Good p ∧ At s p x ∧ x.att = 1 ∧ Vacuum s p ∧
    ∃ g, POss.out_obs__G_U x 0 = some g ∧ divergence s.gconn (fun j => PUU s 0 j) p ≠ -g := by
  let p : Pt := fun _ => 1
  have X : At vac p (nodeO vac p (fun _ => 0) (fun _ => 0) (fun _ => 0) (fun _ => 0) 0 0 (fun _ => 0)) := nodeO_at _ _ _ _ _ _ _ _ _
  have G := vac_good p
  refine ⟨vac, p, _, G, X, rfl, vac_vacuum p, _, (C87_Ossokine_partial G (vac_tr p) X rfl 0).2, ?_⟩
  have V := vac_vacuum p 0
  rw [V, sub_self, mul_zero, add_zero, neg_neg]
  have d : ∀ j, PUU vac 0 j = fun _ => if (0 : Fin 3) = j then 1 else 0 := by
    intro j
    funext q
    rw [PUU_eq G]
    fin_cases j <;> simp [vac]
  have e : divergence vac.gconn (fun j => PUU vac 0 j) p = ∑ j, pd (PUU vac 0 j) j p + ∑ j, ((∑ k, vac.conn k k j p) + 6 * vac.L j p) * PUU vac 0 j p := by
    unfold divergence
    rw [Finset.sum_add_distrib]
    congr 1
    exact Finset.sum_congr rfl fun j _ => by rw [← Finset.sum_mul, gconn_trace G]
  rw [e]
  have L0 : vac.L 0 p = 1 := by
    have h : pd vac.psi 0 p = 2 := by
      have : pd vac.psi 0 p = deriv (fun t : ℝ => 1 + t ^ 2) (p 0) := by
        unfold pd
        congr 1
      rw [this, demo_deriv]
      norm_num [p]
    unfold Slice.L
    rw [h]
    norm_num [vac, p]
  have : ∑ j, ((∑ k, vac.conn k k j p) + 6 * vac.L j p) * PUU vac 0 j p = 6 := by
    simp only [d, vac_conn, Fin.sum_univ_three, show ((0 : Fin 3) = 1) = False from by decide, show ((0 : Fin 3) = 2) = False from by decide, if_false, if_true, L0]
    norm_num
  rw [this]
  intro h
  linarith

/-! ### the hypotheses can be met -/

/-- C87_P, C87_J, C87_Rashti, C87_constraint, C87_spin, C87_momentum: a slice with a metric that is not flat; C87_J_constraint and
C87_Ossokine_partial: positions from a centre, a trace-free A -/
example (p c : Pt) (n b J : Fin 3 → ℝ) (E S : ℝ) : demoSlice.Good p ∧ At demoSlice p (nodeO demoSlice p n b (fun i => p i - c i) (fun _ => 2) E S J) ∧
    (∀ i, (nodeO demoSlice p n b (fun i => p i - c i) (fun _ => 2) E S J).x_xCM_U i = p i - c i) ∧
    (∀ i, (nodeO demoSlice p n b (fun i => p i - c i) (fun _ => 2) E S J).xi_U i = p i - c i) ∧
    (nodeO demoSlice p n b (fun i => p i - c i) (fun _ => 2) E S J).att = 1 ∧ ∑ i, ∑ j, demoSlice.g i j p * demoSlice.A i j p = 0 :=
  ⟨demo_good p, nodeO_at _ _ _ _ _ _ _ _ _, fun _ => rfl, fun _ => rfl, rfl, by simp [demoSlice, Fin.sum_univ_three]⟩

/-- the items of the example of C86 with the nodes of a slice in vacuum -/
noncomputable def vacItem (b : Bool) : Item := { exItem b with x := fun l => nodeO vac (fun _ => l) (fun _ => 1) (fun _ => 0) (fun _ => l) (fun _ => 1) 0 0 (fun _ => 0) }

/-- C87_J_agree: a surface, positions from the origin -/
example : [vacItem true] ≠ [] ∧ (∀ b ∈ [vacItem true], b.surf = true) ∧ (∀ a ∈ [vacItem true], ∀ l < a.nn, ∃ s p, ∃ c : Fin 3 → ℝ, OnSlice (a.x l) s p ∧
    (∀ i, (a.x l).xi_U i = p i - c i) ∧ (∀ i, (a.x l).x_xCM_U i = p i - c i)) := by
  refine ⟨by simp, by simp [vacItem, exItem], ?_⟩
  intro a ha l _
  simp only [List.mem_cons, List.not_mem_nil, or_false] at ha
  rw [ha]
  exact ⟨vac, fun _ => l, fun _ => 0, ⟨vac_good _, nodeO_at vac (fun _ => l) (fun _ => 1) (fun _ => 0) (fun _ => l) (fun _ => 1) 0 0 (fun _ => 0)⟩,
    fun _ => by simp [vacItem, nodeO], fun _ => by simp [vacItem, nodeO]⟩

/-- C87_P_agree, C87_P_total and C87_J_total: a volume and its surface, or the surface alone -/
example (l : List Item) (hl : l = [vacItem false, vacItem true] ∨ l = [vacItem true]) : l ≠ [] ∧ (∀ a ∈ l, a.Ok) ∧
    (∀ a ∈ l, ∀ k < a.nn, ∃ s p, OnSlice (a.x k) s p ∧ (a.surf = false → Vacuum s p)) ∧ ∀ fS fV, ∃ vals, Vals fS fV l vals := by
  have ok : ∀ b, (vacItem b).Ok := fun b => ⟨(exItem_ok b).n, (exItem_ok b).flag, (exItem_ok b).s⟩
  have h1 : ∀ a ∈ l, ∃ b, a = vacItem b := by
    intro a ha
    rcases hl with h | h <;> rw [h] at ha <;> simp only [List.mem_cons, List.not_mem_nil, or_false] at ha
    · rcases ha with h | h <;> exact ⟨_, h⟩
    · exact ⟨_, ha⟩
  have h2 : ∀ a ∈ l, a.Ok := fun a ha => by obtain ⟨b, e⟩ := h1 a ha; rw [e]; exact ok b
  refine ⟨by rcases hl with h | h <;> rw [h] <;> simp, h2, ?_, fun fS fV => ?_⟩
  · intro a ha k _
    obtain ⟨b, e⟩ := h1 a ha
    rw [e]
    exact ⟨vac, fun _ => k, ⟨vac_good _, nodeO_at vac (fun _ => k) (fun _ => 1) (fun _ => 0) (fun _ => k) (fun _ => 1) 0 0 (fun _ => 0)⟩, fun _ => vac_vacuum _⟩
  · obtain ⟨v, hv, _⟩ := vals_congr l h2 fS fS fV fV (fun _ _ _ _ _ => rfl) (fun _ _ _ _ _ => rfl)
    exact ⟨v, hv⟩

end Elliptica.Obs
