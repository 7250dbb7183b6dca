import Verif.Proof.CmdRun
/-! Splitting reads only the text. -/
namespace Ucsim.Cmd
open Spec

theorem expand_safe {w : Text} (h : ∀ c ∈ w, c ≠ '$' ∧ c ≠ '\\') : ∃ o, expand w = some o := ⟨_, expand_quiet h⟩

theorem takeWhile_sub {p : Char → Bool} {s : Text} : ∀ c ∈ s.takeWhile p, c ∈ s :=
  fun _ h => (List.takeWhile_sublist p).mem h

theorem scanStr_sub1 : ∀ (s : Text), ∀ c ∈ (scanStr s).1, c ∈ s := by
  intro s
  fun_induction scanStr s <;> simp_all

/-- The characters that can make `split` read too far. -/
def Plain (s : Text) : Prop := '$' ∉ s ∧ '\\' ∉ s ∧ ('>' ∉ s ∨ '"' ∉ s)

theorem Plain.sub {s t : Text} (h : Plain s) (hs : ∀ c ∈ t, c ∈ s) : Plain t :=
  ⟨fun hc => h.1 (hs _ hc), fun hc => h.2.1 (hs _ hc), h.2.2.imp (fun a hc => a (hs _ hc)) (fun a hc => a (hs _ hc))⟩

theorem Plain.quiet {s : Text} (h : Plain s) : ∀ c ∈ s, c ≠ '$' ∧ c ≠ '\\' :=
  fun c hc => ⟨fun e => h.1 (e ▸ hc), fun e => h.2.1 (e ▸ hc)⟩

theorem redirectTo_safe {app : Bool} {s : Text} {a : Acc} (h : '"' ∉ s) : ∃ r, redirectTo app s a = some r := by
  unfold redirectTo
  split
  · exact absurd List.mem_cons_self h
  · exact ⟨_, rfl⟩

theorem argStep_safe {s : Text} {a : Acc} (h : Plain s) : ∃ r, argStep s a = some r := by
  unfold argStep
  split
  · rename_i t
    obtain ⟨o, ho⟩ := expand_safe (w := (scanStr t).1) (fun c hc => h.quiet c (List.mem_cons_of_mem _ (scanStr_sub1 t c hc)))
    rw [ho]
    exact ⟨_, rfl⟩
  · rename_i t
    have hq : '"' ∉ t := by
      rcases h.2.2 with h1 | h1
      · exact absurd List.mem_cons_self h1
      · exact fun hc => h1 (List.mem_cons_of_mem _ hc)
    unfold redirection
    split
    · exact redirectTo_safe (fun hc => hq (List.mem_cons_of_mem _ hc))
    · exact redirectTo_safe hq
  · obtain ⟨o, ho⟩ := expand_safe (fun c hc => h.quiet c (takeWhile_sub (p := fun c => !isEnd c) c hc))
    dsimp only
    rw [ho]
    exact ⟨_, rfl⟩

theorem argLoop_safe : ∀ (fuel : Nat) (s : Text) (a : Acc), Plain s → ∃ r, argLoop fuel s a = some r
  | 0, _, _, _ => ⟨_, rfl⟩
  | _ + 1, [], _, _ => ⟨_, rfl⟩
  | n + 1, c :: s, a, h => by
    rw [argLoop]
    split
    · exact ⟨_, rfl⟩
    · obtain ⟨⟨t, b⟩, hr⟩ := argStep_safe (a := a) h
      rw [hr]
      exact argLoop_safe n _ b (h.sub (fun x hx => argStep_sub hr x (dropWhile_sub x hx)))

theorem split_safe {s : Text} (h : Plain s) : ∃ l, split s = some l := by
  unfold split
  split
  · exact ⟨_, rfl⟩
  · split
    · exact ⟨_, rfl⟩
    · exact ⟨_, rfl⟩
    · exact ⟨_, rfl⟩
    · exact ⟨_, rfl⟩
    · dsimp only
      obtain ⟨⟨t, b⟩, hr⟩ := argLoop_safe (skipDelims ((skipDelims s).dropWhile (fun c => !isEnd c))).length
        (skipDelims ((skipDelims s).dropWhile (fun c => !isEnd c))) {}
        (h.sub (fun x hx => dropWhile_sub _ (dropWhile_sub _ (dropWhile_sub (p := isDelim) _ hx))))
      rw [hr]
      exact ⟨_, rfl⟩

end Ucsim.Cmd
