import Verif.Proof.BrkSim

namespace Ucsim
open Spec Props

/-! ### execution arriving at an address -/

theorem arrive_sim {env : Env} {s s' : BSt} {t : BpSt} {x : Bool} (h : BInv s) (hR : BRel s t) {pc : Nat} (hpc : pc < 2 ^ 32)
    (c : Nat → Bool) (inside : Nat → Nat → Bool) (hok : s.doBrk env pc c = .ok (s', x)) :
    BRel s' (bpStep s.rom inside t (.arrive pc c)).1 ∧ x = (bpStep s.rom inside t (.arrive pc c)).2 := by
  simp only [bpStep]
  by_cases hex : ∃ b ∈ t.fetch, b.addr = pc
  · obtain ⟨b, hb, hba⟩ := hex
    obtain ⟨i, hi⟩ := hR.inr b hb
    rw [hba] at hi
    have hbm : toBrk b ∈ s.fbrk.items := by rw [hR.fi]; exact List.mem_map_of_mem hb
    have huq : ∀ b' ∈ t.fetch, b'.addr = pc → b' = b := by
      intro b' hb' hba'
      have hbm' : toBrk b' ∈ s.fbrk.items := by rw [hR.fi]; exact List.mem_map_of_mem hb'
      have e : (toBrk b').addr = (toBrk b).addr := by show b'.addr = b.addr; omega
      have := h.fuq _ hbm' _ hbm i e (by show (s.w.spaces s.rom).idx? b'.addr = some i; rw [hba']; exact hi)
      have hu : b'.uid = b.uid := by have := congrArg Brk.id this; exact this
      exact uid_inj (by rw [← hR.fi]; exact h.fid) hb' hb hu
    have hflag : s.w.fetchFlag s.rom pc = true := by
      unfold World.fetchFlag; rw [hi]
      refine (h.flag i (idx?_lt hi)).2 ⟨toBrk b, hbm, ?_⟩
      show (s.w.spaces s.rom).idx? b.addr = some i; rw [hba]; exact hi
    have hget : ∃ k, s.getBp pc = some (k, toBrk b) := by
      cases hg : s.getBp pc with
      | none => have := h.getBp_none hpc hg (toBrk b) hbm hba; rw [this] at hi; cases hi
      | some kx =>
        obtain ⟨k, y⟩ := kx
        obtain ⟨g1, g2, _⟩ := h.getBp_some hpc hg
        have := h.fuq y (List.mem_of_getElem? g1) (toBrk b) hbm i (by rw [g2]; exact hba.symm) (by rw [g2]; exact hi)
        exact ⟨k, by rw [this]⟩
    obtain ⟨k, hget⟩ := hget
    unfold BSt.doBrk at hok
    rw [if_pos hflag, hget] at hok
    simp only at hok
    have hhit := doHit_spec (env := env) (c := c) (hR.fhit b hb)
    have e0 : (toBrk b).id = b.uid := rfl
    rw [e0, hhit] at hok
    have hstop : (due b.hit (b.seen + 1) && (!b.cond || c b.uid)) = b.stops c := rfl
    rw [hstop] at hok
    have hany : t.fetch.any (fun b => decide (b.addr = pc) && b.stops c) = b.stops c := by
      cases hs : b.stops c with
      | true => rw [List.any_eq_true]; exact ⟨b, hb, by simp [hba, hs]⟩
      | false =>
        rw [List.any_eq_false]
        intro b' hb'
        by_cases he : b'.addr = pc
        · rw [huq b' hb' he, hs]; simp
        · simp [he]
    have hother : ∀ b' ∈ t.fetch, b'.addr ≠ pc → b'.uid ≠ b.uid := by
      intro b' hb' hne hu
      exact hne (by rw [uid_inj (by rw [← hR.fi]; exact h.fid) hb' hb hu]; exact hba)
    have hev : ∀ b' ∈ t.event, b'.uid ≠ b.uid := by
      intro b' hb' hu
      have h1 : toBrk b' ∈ s.ebrk.items := by rw [hR.ei]; exact List.mem_map_of_mem hb'
      exact h.cid _ hbm _ h1 hu.symm
    -- the state with one more hit
    have hR1 : ∀ f : List Bp, f = t.fetch.map (fun b => if b.addr = pc then b.tick else b) →
        BRel { s with w := { s.w with brks := upd s.w.brks b.uid ⟨b.hit, left b.hit (b.seen + 1), b.cond⟩ } } { t with fetch := f } := by
      rintro f rfl
      refine ⟨?_, hR.ei, hR.last, hR.made, ?_, ?_, hR.log, ?_, hR.ead⟩ <;> simp only
      · rw [hR.fi, List.map_map]
        apply List.map_congr_left
        intro y _
        simp only [Function.comp]
        split <;> rfl
      · intro y hy
        obtain ⟨z, hz, rfl⟩ := List.mem_map.1 hy
        by_cases hza : z.addr = pc
        · rw [if_pos hza, huq z hz hza]
          show upd s.w.brks b.uid _ b.uid = _
          rw [upd_same]; rfl
        · rw [if_neg hza, upd_other _ _ _ _ (hother z hz hza)]; exact hR.fhit z hz
      · intro y hy; rw [upd_other _ _ _ _ (hev y hy)]; exact hR.ehit y hy
      · intro y hy
        obtain ⟨z, hz, rfl⟩ := List.mem_map.1 hy
        have : (if z.addr = pc then z.tick else z).addr = z.addr := by split <;> rfl
        rw [this]; exact hR.inr z hz
    have hI1 : BInv { s with w := { s.w with brks := upd s.w.brks b.uid ⟨b.hit, left b.hit (b.seen + 1), b.cond⟩ } } :=
      h.of_brks rfl
    rw [hany]
    cases hs : b.stops c with
    | false =>
      rw [hs] at hok
      simp only at hok
      cases hok
      refine ⟨?_, rfl⟩
      rw [filter_ne_self (p := fun b : Bp => !(decide (b.addr = pc) && b.temp && b.stops c))]
      · exact hR1 _ rfl
      · intro y hy
        by_cases he : y.addr = pc
        · rw [huq y hy he, hs]; simp
        · simp [he]
    | true =>
      rw [hs] at hok
      simp only at hok
      have hd : (toBrk b).dyn = b.temp := rfl
      rw [hd] at hok
      cases ht : b.temp with
      | false =>
        rw [ht] at hok
        simp only [Bool.false_eq_true, if_false] at hok
        cases hok
        refine ⟨?_, rfl⟩
        rw [filter_ne_self (p := fun b : Bp => !(decide (b.addr = pc) && b.temp && b.stops c))]
        · exact hR1 _ rfl
        · intro y hy
          by_cases he : y.addr = pc
          · rw [huq y hy he, ht]; simp
          · simp [he]
      | true =>
        rw [ht] at hok
        simp only [if_true] at hok
        obtain ⟨s2, k1, k2, k3, k4, k5, k6, k7, k8, k9, _, k11⟩ := delAddr_spec hI1 (a := pc) hpc
        rw [k1] at hok
        simp only at hok
        cases hok
        refine ⟨?_, rfl⟩
        have hpred : t.fetch.filter (fun b => !(decide (b.addr = pc) && b.temp && b.stops c)) =
            t.fetch.filter (fun b => b.addr ≠ pc) := by
          apply List.filter_congr
          intro y hy
          by_cases he : y.addr = pc
          · rw [huq y hy he, ht, hs]; simp [hba]
          · simp [he]
        have hmap : (t.fetch.filter (fun b => b.addr ≠ pc)).map (fun b => if b.addr = pc then b.tick else b) =
            t.fetch.filter (fun b => b.addr ≠ pc) := by
          refine (List.map_congr_left ?_).trans (List.map_id _)
          intro y hy
          have := (List.mem_filter.1 hy).2
          simp only [decide_eq_true_eq] at this
          rw [if_neg this]; rfl
        rw [hpred, hmap]
        refine ⟨?_, ?_, ?_, ?_, ?_, ?_, ?_, ?_, hR.ead⟩ <;> simp only
        · rw [k11 ⟨i, hi⟩, hR.fi, filter_toBrk]; rfl
        · rw [k4]; exact hR.ei
        · rw [k5]; exact hR.last
        · rw [k6]; exact hR.made
        · intro y hy
          obtain ⟨hy1, hy2⟩ := List.mem_filter.1 hy
          simp only [decide_eq_true_eq] at hy2
          rw [k8]
          exact (upd_other _ _ _ _ (hother y hy1 hy2)).trans (hR.fhit y hy1)
        · intro y hy
          rw [k8]
          exact (upd_other _ _ _ _ (hev y hy)).trans (hR.ehit y hy)
        · rw [k9]; exact hR.log
        · intro y hy
          rw [k7, k3.geo.idx]; exact hR.inr y (List.mem_filter.1 hy).1
  · have hne : ∀ b ∈ t.fetch, b.addr ≠ pc := fun b hb he => hex ⟨b, hb, he⟩
    have hnone : s.getBp pc = none := by
      cases hg : s.getBp pc with
      | none => rfl
      | some kx =>
        obtain ⟨k, y⟩ := kx
        obtain ⟨g1, g2, _⟩ := h.getBp_some hpc hg
        exact absurd ((any_addr hR pc).2 ⟨y, List.mem_of_getElem? g1, g2⟩) hex
    have hres : s.doBrk env pc c = .ok (s, false) := by
      unfold BSt.doBrk; split
      · rw [hnone]
      · rfl
    rw [hres] at hok
    cases hok
    have e1 : (t.fetch.filter (fun b => !(decide (b.addr = pc) && b.temp && b.stops c))).map (fun b => if b.addr = pc then b.tick else b) = t.fetch := by
      rw [filter_ne_self (by intro y hy; simp [hne y hy])]
      refine (List.map_congr_left ?_).trans (List.map_id _)
      intro y hy; rw [if_neg (hne y hy)]; rfl
    rw [e1]
    refine ⟨hR, ?_⟩
    symm; rw [List.any_eq_false]
    intro y hy; simp [hne y hy]

/-- do_brk never fails. -/
theorem doBrk_total {env : Env} {s : BSt} (h : BInv s) {pc : Nat} (hpc : pc < 2 ^ 32) (c : Nat → Bool) :
    ∃ r, s.doBrk env pc c = .ok r := by
  unfold BSt.doBrk
  split
  · split
    · exact ⟨_, rfl⟩
    · rename_i i b hg
      have hm := doHit_same { env with cond := fun i _ => c i } s.w b.id
      split
      · rename_i w1 hh
        rw [hh] at hm
        split
        · obtain ⟨s2, k1, _⟩ := delAddr_spec (h.of_brks (w' := w1) hm.spaces) (a := pc) hpc
          rw [k1]; exact ⟨_, rfl⟩
        · exact ⟨_, rfl⟩
      · exact ⟨_, rfl⟩
  · exact ⟨_, rfl⟩

/-! ### memory accesses -/

/-- Notify a list of breakpoints. -/
def notify (env : Env) (w : World) (l : List Nat) : World := l.foldl (fun w u => w.event env u) w

theorem notify_spec {env : Env} {c : Nat → Bool} (L : List Bp) (hd : L.Pairwise (fun a b => a.uid ≠ b.uid)) (w : World)
    (hh : ∀ b ∈ L, w.brks b.uid = ⟨b.hit, left b.hit b.seen, b.cond⟩) :
    (∀ b ∈ L, (notify { env with cond := fun i _ => c i } w (L.map Bp.uid)).brks b.uid = ⟨b.hit, left b.hit (b.seen + 1), b.cond⟩) ∧
    (∀ u, (∀ b ∈ L, b.uid ≠ u) → (notify { env with cond := fun i _ => c i } w (L.map Bp.uid)).brks u = w.brks u) ∧
    (notify { env with cond := fun i _ => c i } w (L.map Bp.uid)).events =
      ((L.filter (fun b => b.stops c)).map Bp.uid).reverse ++ w.events := by
  induction L generalizing w with
  | nil => simp [notify]
  | cons a L ih =>
    rw [List.pairwise_cons] at hd
    have hev : ∃ w1, w.event { env with cond := fun i _ => c i } a.uid = w1 ∧
        w1.brks = upd w.brks a.uid ⟨a.hit, left a.hit (a.seen + 1), a.cond⟩ ∧
        w1.events = if a.stops c then a.uid :: w.events else w.events := by
      refine ⟨_, rfl, ?_⟩
      unfold World.event
      rw [doHit_spec (hh a List.mem_cons_self)]
      have hstop : (due a.hit (a.seen + 1) && (!a.cond || c a.uid)) = a.stops c := rfl
      rw [hstop]
      simp only
      split <;> exact ⟨rfl, rfl⟩
    obtain ⟨w1, e1, e2, e3⟩ := hev
    have estep : notify { env with cond := fun i _ => c i } w ((a :: L).map Bp.uid) =
        notify { env with cond := fun i _ => c i } w1 (L.map Bp.uid) := by
      rw [← e1]; rfl
    rw [estep]
    obtain ⟨g1, g2, g3⟩ := ih hd.2 w1 (by
      intro b hb
      rw [e2, upd_other _ _ _ _ (fun he => hd.1 b hb he.symm)]
      exact hh b (List.mem_cons_of_mem _ hb))
    refine ⟨?_, ?_, ?_⟩
    · intro b hb
      rcases List.mem_cons.1 hb with rfl | hb
      · rw [g2 _ (fun b' hb' he => hd.1 b' hb' he.symm), e2, upd_same]
      · exact g1 b hb
    · intro u hu
      rw [g2 u (fun b hb => hu b (List.mem_cons_of_mem _ hb)), e2,
        upd_other _ _ _ _ (fun he => hu a List.mem_cons_self he.symm)]
    · rw [g3, e3]
      cases hs : a.stops c with
      | true => rw [List.filter_cons_of_pos (by simp [hs])]; simp
      | false => rw [List.filter_cons_of_neg (by simp [hs])]; simp

theorem readOps_notify (env : Env) (r : CRef) (L : List Brk) (hk : ∀ b ∈ L, b.kind = .rd ∨ b.kind = .wr) (w : World) (x : W) :
    (World.readOps env r (L.map Brk.op) w x).1 = notify env w ((L.filter (fun b => b.kind = .rd)).map Brk.id) := by
  induction L generalizing w x with
  | nil => rfl
  | cons a L ih =>
    have hk' : ∀ b ∈ L, b.kind = .rd ∨ b.kind = .wr := fun b hb => hk b (List.mem_cons_of_mem _ hb)
    rcases hk a List.mem_cons_self with h | h
    · have e : a.op = .rd a.id := by unfold Brk.op; rw [h]; simp
      rw [List.map_cons, e, List.filter_cons_of_pos (by simp [h])]
      simp only [World.readOps, World.opRead]
      rw [ih hk']; rfl
    · have e : a.op = .wr a.id := by unfold Brk.op; rw [h]; simp
      rw [List.map_cons, e, List.filter_cons_of_neg (by simp [h])]
      simp only [World.readOps, World.opRead]
      rw [ih hk']

theorem writeOps_notify (env : Env) (r : CRef) (L : List Brk) (hk : ∀ b ∈ L, b.kind = .rd ∨ b.kind = .wr) (w : World) (v : W) :
    (World.writeOps env r (L.map Brk.op) w v).1 = notify env w ((L.filter (fun b => b.kind = .wr)).map Brk.id) := by
  induction L generalizing w with
  | nil => rfl
  | cons a L ih =>
    have hk' : ∀ b ∈ L, b.kind = .rd ∨ b.kind = .wr := fun b hb => hk b (List.mem_cons_of_mem _ hb)
    rcases hk a List.mem_cons_self with h | h
    · have e : a.op = .rd a.id := by unfold Brk.op; rw [h]; simp
      rw [List.map_cons, e, List.filter_cons_of_neg (by simp [h])]
      simp only [World.writeOps, World.opWrite]
      rw [ih hk']
    · have e : a.op = .wr a.id := by unfold Brk.op; rw [h]; simp
      rw [List.map_cons, e, List.filter_cons_of_pos (by simp [h])]
      simp only [World.writeOps, World.opWrite]
      rw [ih hk']; rfl

theorem err_brks (w : World) (sp a : Nat) : (w.err sp a).brks = w.brks ∧ (w.err sp a).events = w.events := by
  unfold World.err; split <;> exact ⟨rfl, rfl⟩

theorem filter_isBrk_plain {l : List MOp} (h : l.filter (fun o => !o.isBrk) = []) : l.filter MOp.isBrk = l := by
  rw [List.filter_eq_self]
  rw [List.filter_eq_nil_iff] at h
  intro o ho; have := h o ho; simpa using this

theorem at_iff (w : World) (sp i : Nat) (b : Brk) : Brk.at_ w sp i b = true ↔
    b.mem = sp ∧ (w.spaces sp).idx? b.addr = some i ∧ (b.kind = .rd ∨ b.kind = .wr) := by
  unfold Brk.at_; rw [decide_eq_true_eq]

theorem watches_iff (b : Bp) (x : Act) : b.watches x = true ↔ accKind x = some b.kind ∧ x.loc = (b.mem, b.addr) := by
  unfold Bp.watches; rw [decide_eq_true_eq]

/-- The breakpoints that an access notifies, in the order of their numbers. -/
theorem act_notify {env : Env} {s : BSt} {t : BpSt} (h : BInv s) (hR : BRel s t) (x : Act) (hx : x.loc.2 < 2 ^ 32)
    (hp : Plain s.w x.loc.1 x.loc.2) :
    (insideOf s.w x.loc.1 x.loc.2 = false → (s.w.act env x).brks = s.w.brks ∧ (s.w.act env x).events = s.w.events) ∧
    (insideOf s.w x.loc.1 x.loc.2 = true →
      (s.w.act env x).brks = (notify env s.w ((t.event.filter (fun b => b.watches x)).map Bp.uid)).brks ∧
      (s.w.act env x).events = (notify env s.w ((t.event.filter (fun b => b.watches x)).map Bp.uid)).events) := by
  -- the operators of a location
  have hops : ∀ sp a i, (s.w.spaces sp).idx? a = some i → Plain s.w sp a →
      ((s.w.spaces sp).cells i).ops = (s.ebrk.items.filter (Brk.at_ s.w sp i)).map Brk.op := by
    intro sp a i hi hpl
    unfold Plain at hpl; rw [hi] at hpl
    rw [← h.ops sp i (idx?_lt hi), filter_isBrk_plain hpl]
  have hkinds : ∀ sp i, ∀ b ∈ s.ebrk.items.filter (Brk.at_ s.w sp i), b.kind = .rd ∨ b.kind = .wr := by
    intro sp i b hb
    have := (List.mem_filter.1 hb).2
    unfold Brk.at_ at this
    simp only [decide_eq_true_eq] at this
    exact this.2.2
  have hsel : ∀ (sp a i : Nat) (k : BKind) (y : Act), (s.w.spaces sp).idx? a = some i → a < 2 ^ 32 → (k = .rd ∨ k = .wr) →
      accKind y = some k → y.loc = (sp, a) →
      ((s.ebrk.items.filter (Brk.at_ s.w sp i)).filter (fun b => b.kind = k)).map Brk.id =
        (t.event.filter (fun b => b.watches y)).map Bp.uid := by
    intro sp a i k y hi ha hk hy1 hy2
    rw [hR.ei, filter_toBrk, filter_toBrk, List.map_map, List.filter_filter]
    have : (t.event.filter (fun b => decide ((toBrk b).kind = k) && Brk.at_ s.w sp i (toBrk b))) =
        t.event.filter (fun b => b.watches y) := by
      apply List.filter_congr
      intro b hb
      rw [Bool.eq_iff_iff, Bool.and_eq_true, at_iff, watches_iff, decide_eq_true_eq, hy1, hy2]
      simp only [toBrk, Option.some.injEq, Prod.mk.injEq]
      constructor
      · rintro ⟨h1, h2, h3, _⟩
        refine ⟨h1.symm, h2.symm, ?_⟩
        exact idx_inj (h.geo sp) ha (hR.ead b hb) hi h3
      · rintro ⟨h1, h2, h3⟩
        refine ⟨h1.symm, h2.symm, ?_, by rw [← h1]; exact hk⟩
        rw [← h3]; exact hi
    rw [this]; rfl
  have hnone : ∀ y : Act, accKind y = none → t.event.filter (fun b => b.watches y) = [] := by
    intro y hy
    rw [List.filter_eq_nil_iff]
    intro b _; unfold Bp.watches; simp [hy]
  cases x with
  | write sp a v =>
    simp only [Act.loc] at hp hx ⊢
    unfold insideOf
    cases hi : (s.w.spaces sp).idx? a with
    | none =>
      refine ⟨fun _ => ?_, by simp⟩
      simp only [World.act, World.write, hi, World.cwrite, World.dummyStore]
      exact err_brks _ _ _
    | some i =>
      refine ⟨by simp, fun _ => ?_⟩
      simp only [World.act, World.write, hi, World.cwrite, World.cell]
      rw [hops sp a i hi hp]
      have := writeOps_notify env (.cell sp i) _ (hkinds sp i) s.w v
      rw [hsel sp a i .wr (.write sp a v) hi hx (Or.inr rfl) rfl rfl] at this
      rcases hwo : World.writeOps env (.cell sp i) ((s.ebrk.items.filter (Brk.at_ s.w sp i)).map Brk.op) s.w v with ⟨w', v'⟩
      rw [hwo] at this
      simp only at this ⊢
      rw [this]
      exact ⟨rfl, rfl⟩
  | read sp a =>
    simp only [Act.loc] at hp hx ⊢
    unfold insideOf
    cases hi : (s.w.spaces sp).idx? a with
    | none =>
      refine ⟨fun _ => ?_, by simp⟩
      unfold Plain at hp; rw [hi] at hp; simp only at hp
      simp only [World.act, World.read, hi, World.cread, World.cell]
      rw [err_spaces, hp]
      exact err_brks _ _ _
    | some i =>
      refine ⟨by simp, fun _ => ?_⟩
      simp only [World.act, World.read, hi, World.cread, World.cell]
      have hrd := readOps_notify env (.cell sp i) _ (hkinds sp i) s.w 0#32
      rw [hsel sp a i .rd (.read sp a) hi hx (Or.inl rfl) rfl rfl, ← hops sp a i hi hp] at hrd
      split
      · rename_i hnil
        rw [hnil] at hrd
        rw [← hrd]; exact ⟨rfl, rfl⟩
      · rw [← hrd]; exact ⟨rfl, rfl⟩
  | set sp a v =>
    rw [hnone _ rfl]
    have e : (s.w.act env (.set sp a v)).brks = s.w.brks ∧ (s.w.act env (.set sp a v)).events = s.w.events := by
      simp only [World.act, World.set]; split
      · simp only [World.cset, World.dummyStore]; exact err_brks _ _ _
      · exact ⟨rfl, rfl⟩
    exact ⟨fun _ => e, fun _ => e⟩
  | download sp a v =>
    rw [hnone _ rfl]
    have e : (s.w.act env (.download sp a v)).brks = s.w.brks ∧ (s.w.act env (.download sp a v)).events = s.w.events := by
      simp only [World.act, World.download]; split
      · simp only [World.cdownload]; exact err_brks _ _ _
      · exact ⟨rfl, rfl⟩
    exact ⟨fun _ => e, fun _ => e⟩
  | get sp a =>
    rw [hnone _ rfl]
    have e : (s.w.act env (.get sp a)).brks = s.w.brks ∧ (s.w.act env (.get sp a)).events = s.w.events := by
      simp only [World.act, World.get]; split
      · exact err_brks _ _ _
      · exact ⟨rfl, rfl⟩
    exact ⟨fun _ => e, fun _ => e⟩
  | setRo sp a b =>
    rw [hnone _ rfl]
    have e : (s.w.act env (.setRo sp a b)).brks = s.w.brks ∧ (s.w.act env (.setRo sp a b)).events = s.w.events := by
      simp only [World.act, World.setRo]; split <;> exact ⟨rfl, rfl⟩
    exact ⟨fun _ => e, fun _ => e⟩

theorem acc_sim {env : Env} {s : BSt} {t : BpSt} (h : BInv s) (hR : BRel s t) (x : Act) (hx : x.loc.2 < 2 ^ 32)
    (hp : Plain s.w x.loc.1 x.loc.2) (c : Nat → Bool) :
    BRel (s.acc env x c) (bpStep s.rom (insideOf s.w) t (.acc x c)).1 := by
  have hw := act_wiring (env := { env with cond := fun i _ => c i }) (w := s.w) x hp.quiet
  obtain ⟨g1, g2⟩ := act_notify (env := { env with cond := fun i _ => c i }) h hR x hx hp
  simp only [bpStep]
  have hdist : (t.event.filter (fun b => b.watches x)).Pairwise (fun a b => a.uid ≠ b.uid) := by
    have := h.eid
    rw [hR.ei, List.pairwise_map] at this
    exact this.sublist List.filter_sublist
  obtain ⟨n1, n2, n3⟩ := notify_spec (env := env) (c := c) _ hdist s.w (fun b hb => hR.ehit b (List.mem_filter.1 hb).1)
  cases hin : insideOf s.w x.loc.1 x.loc.2 with
  | false =>
    obtain ⟨e1, e2⟩ := g1 hin
    rw [if_neg (by simp)]
    refine ⟨hR.fi, hR.ei, hR.last, hR.made, ?_, ?_, ?_, ?_, hR.ead⟩
    · intro b hb; show (s.w.act _ x).brks b.uid = _; rw [e1]; exact hR.fhit b hb
    · intro b hb; show (s.w.act _ x).brks b.uid = _; rw [e1]; exact hR.ehit b hb
    · show (s.w.act _ x).events = _; rw [e2]; exact hR.log
    · intro b hb; show ∃ i, ((s.w.act _ x).spaces s.rom).idx? b.addr = some i; rw [hw.idx]; exact hR.inr b hb
  | true =>
    obtain ⟨e1, e2⟩ := g2 hin
    rw [if_pos rfl]
    have euid : ∀ b ∈ t.event, ∀ b' ∈ t.event, b.uid = b'.uid → b = b' := fun b hb b' hb' he =>
      uid_inj (by rw [← hR.ei]; exact h.eid) hb hb' he
    refine ⟨hR.fi, ?_, hR.last, hR.made, ?_, ?_, ?_, ?_, ?_⟩ <;> simp only
    · show s.ebrk.items = _
      rw [hR.ei, List.map_map]
      apply List.map_congr_left
      intro b _; simp only [Function.comp]; split <;> rfl
    · intro b hb; show (s.w.act _ x).brks b.uid = _
      rw [e1, n2]
      · exact hR.fhit b hb
      · intro b' hb' he
        have h1 : toBrk b ∈ s.fbrk.items := by rw [hR.fi]; exact List.mem_map_of_mem hb
        have h2 : toBrk b' ∈ s.ebrk.items := by rw [hR.ei]; exact List.mem_map_of_mem (List.mem_filter.1 hb').1
        exact h.cid _ h1 _ h2 he.symm
    · intro b hb; show (s.w.act _ x).brks b.uid = _
      obtain ⟨b0, hb0, rfl⟩ := List.mem_map.1 hb
      by_cases hwt : b0.watches x = true
      · rw [if_pos hwt, e1]
        exact n1 b0 (List.mem_filter.2 ⟨hb0, hwt⟩)
      · rw [if_neg hwt, e1, n2]
        · exact hR.ehit b0 hb0
        · intro b' hb' he
          have := List.mem_filter.1 hb'
          rw [euid b' this.1 b0 hb0 he] at this
          exact hwt this.2
    · show (s.w.act _ x).events = _
      rw [e2, n3, hR.log, List.filter_filter]
      congr 3
      apply List.filter_congr
      intro b _; rw [Bool.and_comm]
    · intro b hb; show ∃ i, ((s.w.act _ x).spaces s.rom).idx? b.addr = some i; rw [hw.idx]; exact hR.inr b hb
    · intro b hb
      obtain ⟨b0, hb0, rfl⟩ := List.mem_map.1 hb
      have : (if b0.watches x = true then b0.tick else b0).addr = b0.addr := by split <;> rfl
      rw [this]; exact hR.ead b0 hb0

end Ucsim
