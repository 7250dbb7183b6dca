import Verif.Proof.Dump
import Verif.Proof.HexWord
import Verif.Proof.SetRom
/-!
# C25 - C27: Intel HEX files

`Spec.Hex.Line` is a record as written in a file, `Spec.Hex.stores` what a loader
has to store.  `dumpI` is the text printed by the dump, `World.loadHex` the
loader.  `none` = the loader does not return.
-/
namespace Ucsim.Props
open Ucsim Ucsim.Spec.Hex

/-- Element `a` of chip `k` as the user reads it. -/
abbrev chipRead (env : Env) (w : World) (k a : Nat) : Nat := (chipGet env.chips w.bytes k a).toNat

theorem chipGet_elem (env : Env) (m : Bytes) (k a : Nat) (h : a < (env.chips k).size) :
    chipGet env.chips m k a = elemOf env.chips m k a &&& maskOf (env.chips k).width := by
  unfold chipGet elemOf
  rw [if_neg (by omega)]

/-- Any load into a chip: what is stored last at an address is read there, all
other elements of this and of every other chip keep their contents. -/
theorem load_chip (env : Env) (is : InSpec) (w : World) (k : Nat) (ht : is.tgt = .chip k) (hp : is.Plain)
    (h1 : 1 ≤ (env.chips k).width) (h2 : (env.chips k).width ≤ 32) (calls : List (Nat × Nat))
    (hc : ∀ c ∈ calls, c.1 < 2 ^ 32 ∧ c.2 < 2 ^ 32) :
    (∀ a, a < (env.chips k).size → chipRead env (w.setRoms env is calls) k a =
      match lastStore calls a with
      | some v => v % 2 ^ (env.chips k).width
      | none => chipRead env w k a) ∧
    (∀ k' a, k' ≠ k → chipRead env (w.setRoms env is calls) k' a = chipRead env w k' a) ∧
    (w.setRoms env is calls).spaces = w.spaces := by
  obtain ⟨e1, e2, e3⟩ := setRoms_chip ht hp h1 h2 w calls hc
  refine ⟨?_, ?_, by rw [e3]⟩
  · intro a ha
    unfold chipRead
    rw [chipGet_elem env _ k a ha, e1 a ha]
    cases lastStore calls a with
    | none => simp only; rw [chipGet_elem env _ k a ha]
    | some v =>
      simp only
      rw [and_maskOf_toNat _ _ h1 h2, BitVec.toNat_ofNat]
      have : v % 2 ^ (env.chips k).width < 2 ^ (env.chips k).width := Nat.mod_lt _ (Nat.two_pow_pos _)
      have : 2 ^ (env.chips k).width ≤ 2 ^ 32 := Nat.pow_le_pow_right (by omega) h2
      rw [Nat.mod_eq_of_lt (show v % 2 ^ (env.chips k).width < 2 ^ 32 by omega), Nat.mod_mod]
  · intro k' a hk
    unfold chipRead
    by_cases ha : a < (env.chips k').size
    · rw [chipGet_elem env _ k' a ha, chipGet_elem env _ k' a ha, e2 k' a (Or.inl hk)]
    · unfold chipGet; rw [if_pos (by omega), if_pos (by omega)]

/-- Any load into the address space of the program memory (no banks): what is
stored last at an address is read there, other addresses read as before. -/
theorem load_rom (env : Env) (is : InSpec) (w : World) (hw : Wf env w) (sp : Nat) (ht : is.tgt = .space sp) (hr : is.rom = sp)
    (hp : is.Plain) (hnb : ∀ d, is.bankerOf d = none) (hsz : 1 ≤ (w.spaces sp).size) (calls : List (Nat × Nat))
    (hc : ∀ c ∈ calls, c.1 < 2 ^ 32 ∧ c.2 < 2 ^ 32)
    (hq : ∀ a, Quiet w sp a)
    (a : Nat) (t : Spec.Target) (hwr : wire env w sp a = some t) (hbits : t.bits = none)
    (hinj : ∀ a' t', wire env w sp a' = some t' → t'.chip = t.chip → t'.elem = t.elem → a' = a)
    (hin : (w.spaces sp).start ≤ a ∧ a < (w.spaces sp).start + (w.spaces sp).size) :
    ((w.setRoms env is calls).get sp a).2.toNat =
      match lastStore calls a with
      | some v => v % 2 ^ t.width % 2 ^ 32
      | none => (w.get sp a).2.toNat := by
  have hb := (hw sp).bound
  rw [setRoms_space ht hr hp hnb calls w hb hsz (fun c h => (hc c h).1)]
  have hacts : ∀ x ∈ downloads sp (w.spaces sp).start (w.spaces sp).size calls, x.loc.2 < 4294967296 ∧ Quiet w x.loc.1 x.loc.2 := by
    intro x hx
    simp only [downloads, List.mem_map, List.mem_filter] at hx
    obtain ⟨c, ⟨hcm, _⟩, rfl⟩ := hx
    exact ⟨(hc c hcm).1, hq _⟩
  obtain ⟨g1, g2⟩ := acts_rel (downloads sp (w.spaces sp).start (w.spaces sp).size calls) hw (specOf_rel env w) hacts
  have e1 := (get_wired (g1.wf hw) (by rw [g1.wire]; exact hwr)).1
  rw [e1, ← g2.mem]
  have e0 := (get_wired hw hwr).1
  rw [e0]
  unfold Spec.readT
  rw [hbits]
  simp only
  rw [spec_downloads (wire env w) sp _ _ a t hwr hbits hinj hin calls (fun c h => (hc c h).2)]
  cases lastStore calls a with
  | none => rfl
  | some v => simp only [BitVec.toNat_ofNat]

/-! ## C25 -/

/-- C25, the stores: loading the text of a dump of the addresses `s..e` of a
memory with limits `lva..hva` (both inside `start..stop` as asked) performs
exactly the stores of the bytes of `s..e`, in order. -/
theorem c25_stores (rd : Nat → Nat) (lva hva start stop bpl width s e : Nat)
    (hs : s = max start lva) (he : e = min stop hva) (hse : s ≤ e) (hlow : e < 65536) (hb : 1 ≤ bpl) (hw : width ≤ 8) :
    readHex width (File.open (dumpI rd lva hva start stop bpl)) =
      some (area (fun a => rd a % 256) s (e + 1 - s), e + 1 - s) := by
  have e1 : (if start < lva then lva else start) = s := by split <;> omega
  have e2 : (if stop > hva then hva else stop) = e := by split <;> omega
  unfold dumpI
  simp only [e1, e2]
  rw [if_neg (by omega), if_neg (by omega), if_neg (by omega)]
  obtain ⟨cs, h1, h2⟩ := dumpLoop_cover rd (if bpl > 32 then 32 else bpl) e (by split <;> omega) (by split <;> omega)
    (e + 1 - s) s s (by omega) (by omega) (fun _ => rfl) (fun m _ _ => by omega)
  rw [h1]
  have ht := chunkLines_text rd cs []
  rw [List.nil_append] at ht
  rw [ht]
  obtain ⟨i1, i2, i3⟩ := chunkLines_stores rd e hlow cs [] s (by simp) (by omega) h2
  rw [readHex_lines width _ _ i2 (by simp) (Or.inl i3) (Or.inr (by simp)), tail8 width hw]
  obtain ⟨j1, j2⟩ := linesSt8 width hw _ Hex.init i2
  have hbase : Hex.init.base = 0 := rfl
  rw [j1, j2, hbase, i1, area_length]
  have hwrap : ∀ n a, a + n ≤ 4294967296 → wrap (area (fun a => rd a % 256) a n) = area (fun a => rd a % 256) a n := by
    intro n
    induction n with
    | zero => intros; rfl
    | succ n ih =>
      intro a ha
      have := ih (a + 1) (by omega)
      unfold wrap at *
      simp only [area, List.map_cons, this]
      rw [show u32 a = a by unfold u32; omega]
  rw [hwrap _ _ (by omega)]
  simp [Hex.init]

theorem lastStore_area (rd : Nat → Nat) (n : Nat) : ∀ (s a : Nat),
    lastStore (area rd s n) a = if s ≤ a ∧ a < s + n then some (rd a) else none := by
  induction n with
  | zero => intro s a; rw [if_neg (by omega)]; rfl
  | succ n ih =>
    intro s a
    simp only [area, lastStore, ih (s + 1) a]
    by_cases h : s + 1 ≤ a ∧ a < s + 1 + n
    · rw [if_pos h, if_pos (show s ≤ a ∧ a < s + (n + 1) by omega)]
    · rw [if_neg h]
      simp only
      by_cases h2 : s = a
      · rw [if_pos h2, if_pos (by omega), h2]
      · rw [if_neg h2, if_neg (by omega)]

/-- C25 for chips: dump and load reproduce exactly the dumped bytes and change
nothing else, whatever the target held. -/
theorem c25_chip (env : Env) (is : InSpec) (w : World) (k : Nat) (ht : is.tgt = .chip k) (hp : is.Plain)
    (hk : (env.chips k).width = 8)
    (rd : Nat → Nat) (lva hva start stop bpl s e : Nat)
    (hs : s = max start lva) (he : e = min stop hva) (hse : s ≤ e) (hlow : e < 65536) (hb : 1 ≤ bpl) :
    ∃ w', w.loadHex env is (dumpI rd lva hva start stop bpl) = some w' ∧
      (∀ a, a < (env.chips k).size → chipRead env w' k a = if s ≤ a ∧ a ≤ e then rd a % 256 else chipRead env w k a) ∧
      (∀ k' a, k' ≠ k → chipRead env w' k' a = chipRead env w k' a) ∧ w'.spaces = w.spaces := by
  unfold World.loadHex
  have hwid : is.width env w = 8 := by unfold InSpec.width; rw [ht]; exact hk
  rw [hwid, c25_stores rd lva hva start stop bpl 8 s e hs he hse hlow hb (by omega)]
  refine ⟨_, rfl, ?_⟩
  simp only
  obtain ⟨e1, e2, e3⟩ := load_chip env is w k ht hp (by omega) (by omega) (area (fun a => rd a % 256) s (e + 1 - s)) (by
    intro c hcm
    have := area_mem hcm
    exact ⟨by omega, by rw [this.2.2]; omega⟩)
  refine ⟨?_, e2, e3⟩
  intro a ha
  rw [e1 a ha, lastStore_area, hk]
  by_cases h : s ≤ a ∧ a ≤ e
  · rw [if_pos h, if_pos (by omega)]
    simp only; omega
  · rw [if_neg h, if_neg (by omega)]

/-- C25 for the address space of the program memory. -/
theorem c25_rom (env : Env) (is : InSpec) (w : World) (hw : Wf env w) (sp : Nat) (ht : is.tgt = .space sp) (hr : is.rom = sp)
    (hp : is.Plain) (hnb : ∀ d, is.bankerOf d = none) (h8 : (w.spaces sp).width = 8) (hsz : 1 ≤ (w.spaces sp).size)
    (hq : ∀ a, Quiet w sp a)
    (hinj : ∀ a a' t t', wire env w sp a = some t → wire env w sp a' = some t' → t'.chip = t.chip → t'.elem = t.elem → a' = a)
    (rd : Nat → Nat) (lva hva start stop bpl s e : Nat)
    (hs : s = max start lva) (he : e = min stop hva) (hse : s ≤ e) (hlow : e < 65536) (hb : 1 ≤ bpl) :
    ∃ w', w.loadHex env is (dumpI rd lva hva start stop bpl) = some w' ∧
      ∀ a t, wire env w sp a = some t → t.bits = none → t.width = 8 →
        (w.spaces sp).start ≤ a ∧ a < (w.spaces sp).start + (w.spaces sp).size →
        (w'.get sp a).2.toNat = if s ≤ a ∧ a ≤ e then rd a % 256 else (w.get sp a).2.toNat := by
  unfold World.loadHex
  have hwid : is.width env w = 8 := by unfold InSpec.width; rw [ht]; exact h8
  rw [hwid, c25_stores rd lva hva start stop bpl 8 s e hs he hse hlow hb (by omega)]
  refine ⟨_, rfl, ?_⟩
  intro a t hwr hbits ht8 hin
  simp only
  rw [load_rom env is w hw sp ht hr hp hnb hsz (area (fun a => rd a % 256) s (e + 1 - s)) (by
    intro c hcm
    have := area_mem hcm
    exact ⟨by omega, by rw [this.2.2]; omega⟩) hq a t hwr hbits (fun a' t' h1 h2 h3 => hinj a a' t t' hwr h1 h2 h3) hin,
    lastStore_area, ht8]
  by_cases h : s ≤ a ∧ a ≤ e
  · rw [if_pos h, if_pos (by omega)]
    simp only; omega
  · rw [if_neg h, if_neg (by omega)]

/-- Why C25 stops at 64K: from address 0x10000 the dump prints five digits of
address and no extended address record, and the loader stores nothing (the
length it sees is right but the checksum is not). -/
theorem c25_high_false :
    readHex 8 (File.open (dumpI (fun _ => 0x55) 0 0x1ffff 0x10000 0x10001 32)) = some ([], 0) := by decide +kernel

/-! ## Termination -/

/-- Loading an empty file, or a file of one character, never returns. -/
theorem hex_hang_short (width : Nat) (l : List Nat) (h : l.length < 2) : readHex width (File.open l) = none := by
  match l, h with
  | [], _ => rfl
  | [b], _ =>
    have e : readHex width (File.open [b]) = (Hex.loop width 2 Hex.init (File.open [b])).map fun h => ((h.tail width).calls, h.written) := rfl
    rw [e]
    have g : (File.open [b]).getC = some (File.charVal b false, ⟨[], [], false⟩) := rfl
    have sk : skipTo 2 (File.open [b]) = none ∨ skipTo 2 (File.open [b]) = some (true, ⟨[], [], false⟩) := by
      unfold skipTo
      rw [g]
      simp only
      by_cases hc : File.charVal b false = 58
      · rw [if_pos hc]; exact Or.inr rfl
      · rw [if_neg hc]; exact Or.inl rfl
    unfold Hex.loop
    have hl : (File.open [b]).left.length + 1 = 2 := rfl
    rw [hl]
    rcases sk with sk | sk
    · rw [sk]; rfl
    · rw [sk]
      have : Hex.line width Hex.init ⟨[], [], false⟩ = none := rfl
      simp only [↓reduceIte, this]
      rfl

theorem lLoop_end_none (width : Nat) (ls : List Line) : ∀ (n : Nat) (h : Hex), (∀ r ∈ ls, r.Ok ∧ r.typ ≠ 1) →
    lLoop width n h (fileText ls []) = none := by
  induction ls with
  | nil => intro n h _; cases n <;> rfl
  | cons r rs ih =>
    intro n h hok
    cases n with
    | zero => rfl
    | succ n =>
      have hr := hok r (by simp)
      have htext : fileText (r :: rs) [] = r.gap ++ 58 :: (r.text ++ fileText rs []) := by
        simp [fileText, Line.chars, List.append_assoc]
      rw [htext]
      unfold lLoop
      rw [lSkip_gap r.gap _ hr.1.gap]
      simp only [↓reduceIte, lLine_ok width h r hr.1, lineSt_rtyp, true_and]
      rw [if_pos hr.2]
      exact ih n _ (fun x hx => hok x (by simp [hx]))

/-- A file of right records without an end record, whose last character is the
last digit of a record (no end of line after it), is read but the loader never
returns. -/
theorem hex_hang_no_end (width : Nat) (ls : List Line) (hne : ls ≠ []) (hok : ∀ r ∈ ls, r.Ok ∧ r.typ ≠ 1) :
    readHex width (File.open (fileText ls [])) = none := by
  obtain ⟨r, rs, rfl⟩ := List.exists_cons_of_ne_nil hne
  rw [readHex_eq width _ ?_ (fileText_bytes _ _ (fun x hx => (hok x hx).1) (by simp)), lLoop_end_none width _ _ _ hok]
  · rfl
  · have := line_long r (hok r (by simp)).1
    simp only [fileText, List.map_cons, List.flatten_cons, List.length_append, Line.chars, List.length_cons]; omega

/-! ## C26 -/

/-- C26, every text file whatsoever: whatever is stored in an 8-bit memory comes
from a type 0 record in the file whose bytes, checksum included, sum to zero. -/
theorem c26_text_partial (width : Nat) (hw : width ≤ 8) (file : List Nat) (hA : Ascii file) (calls : List (Nat × Nat)) (n : Nat)
    (h : readHex width (File.open file) = some (calls, n)) : ∀ c ∈ calls, FromRecord file c := by
  have hlen : file.length ≠ 1 := by
    intro hl
    rw [hex_hang_short width file (by omega)] at h
    cases h
  rw [readHex_eq width file hlen (fun b hb => by have := hA b hb; omega)] at h
  rcases hl : lLoop width (file.length + 1) Hex.init file with _ | h'
  · rw [hl] at h; cases h
  · rw [hl] at h
    simp only [Option.map_some, Option.some.injEq, Prod.mk.injEq] at h
    obtain ⟨cs, e1, e2⟩ := lLoop_from width hw _ Hex.init h' file file [] rfl hA hl
    rw [tail8 width hw, e1] at h
    intro c hc
    apply e2
    rw [← h.1] at hc
    simpa [Hex.init] using hc

theorem sum_set_ne (l : List Nat) : ∀ (i v : Nat), i < l.length → l.getD i 0 ≠ v →
    (∀ b ∈ l, b < 256) → v < 256 → l.sum % 256 = 0 → (l.set i v).sum % 256 ≠ 0 := by
  have key : ∀ (l : List Nat) (i v : Nat), i < l.length → (l.set i v).sum + l.getD i 0 = l.sum + v := by
    intro l
    induction l with
    | nil => intro i v h; simp at h
    | cons x xs ih =>
      intro i v h
      cases i with
      | zero => simp; omega
      | succ i =>
        have := ih i v (by simpa using h)
        simp only [List.set_cons_succ, List.sum_cons, List.getD_cons_succ]; omega
  intro i v h hne hb hv hs
  have hk := key l i v h
  have hi : l.getD i 0 < 256 := by
    apply hb
    rw [List.getD_eq_getElem?_getD, List.getElem?_eq_getElem h]
    exact List.getElem_mem _
  omega

theorem stores_append_bad (xs ys : List Line) (r : Line) (hr : ¬ r.good) : ∀ base,
    stores base (xs ++ r :: ys) = if r.typ = 1 ∧ ∀ x ∈ xs, x.typ ≠ 1 then stores base xs else stores base (xs ++ ys) := by
  induction xs with
  | nil =>
    intro base
    simp only [List.nil_append, stores]
    by_cases h1 : r.typ = 1
    · simp [h1]
    · simp [h1, hr]
  | cons x xs ih =>
    intro base
    simp only [List.cons_append, stores]
    by_cases hx : x.typ = 1
    · simp [hx]
    · have hcond : (r.typ = 1 ∧ ∀ y ∈ x :: xs, y.typ ≠ 1) ↔ (r.typ = 1 ∧ ∀ y ∈ xs, y.typ ≠ 1) := by
        simp [hx]
      simp only [hx, ↓reduceIte, ih]
      by_cases hc : r.typ = 1 ∧ ∀ y ∈ xs, y.typ ≠ 1
      · simp only [if_pos hc, if_pos (hcond.2 hc)]
      · simp only [if_neg hc, if_neg (fun h => hc (hcond.1 h))]

/-- C26: in a file of right records, replace one byte of a record with a right
checksum by another one (not the length byte: `r'` would not be the record its
bytes spell).  The file is then loaded as if the
record was not there - except that a record which now is, or was, of type 1 ends
the loading. -/
theorem c26_altered_partial (width : Nat) (hw : width ≤ 8) (xs ys : List Line) (r r' : Line) (rest : List Nat) (i v : Nat)
    (hok : ∀ x ∈ xs ++ r' :: ys, x.Ok) (hr : r.Ok) (hgood : r.good)
    (hi : i < r.bytes.length) (hv : v < 256) (hne : r.bytes.getD i 0 ≠ v)
    (hr' : r'.bytes = r.bytes.set i v)
    (hb : ∀ c ∈ rest, c < 256)
    (hend : (∃ x ∈ xs ++ r' :: ys, x.typ = 1) ∨ (rest ≠ [] ∧ ∀ c ∈ rest, c ≠ 58)) :
    ∃ n, readHex width (File.open (fileText (xs ++ r' :: ys) rest)) =
      some (if r'.typ = 1 ∧ ∀ x ∈ xs, x.typ ≠ 1 then wrap (stores 0 xs) else wrap (stores 0 (xs ++ ys)), n) := by
  have hbad : ¬ r'.good := by
    unfold Line.good
    rw [hr']
    refine sum_set_ne _ i v hi hne ?_ hv hgood
    intro b hbm
    have h1 := hr.addr
    have h2 := hr.len
    have h3 := hr.typ
    have h4 := hr.sum
    simp only [Line.bytes, List.mem_cons, List.mem_append, List.not_mem_nil, or_false] at hbm
    rcases hbm with rfl | rfl | rfl | rfl | hbm | rfl
    · exact h2
    · omega
    · omega
    · exact h3
    · exact hr.data b hbm
    · exact h4
  refine ⟨(linesSt width Hex.init (xs ++ r' :: ys)).written, ?_⟩
  rw [readHex_lines width _ _ hok hb hend (Or.inl (by simp)), tail8 width hw]
  obtain ⟨j1, j2⟩ := linesSt8 width hw _ Hex.init hok
  rw [j1]
  have hbase : Hex.init.base = 0 := rfl
  have hcalls : Hex.init.calls = [] := rfl
  rw [hbase, stores_append_bad xs ys r' hbad 0, hcalls]
  rw [List.nil_append]
  congr 2
  split <;> rfl

/-- Any number of records with wrong checksums: none of them stores anything. -/
theorem c26_bad_records (width : Nat) (hw : width ≤ 8) (ls : List Line) (rest : List Nat)
    (hok : ∀ x ∈ ls, x.Ok) (hbad : ∀ x ∈ ls, x.typ = 0 → ¬ x.good) (hb : ∀ c ∈ rest, c < 256)
    (hend : (∃ x ∈ ls, x.typ = 1) ∨ (rest ≠ [] ∧ ∀ c ∈ rest, c ≠ 58)) (hlen : ls ≠ [] ∨ 2 ≤ rest.length) :
    readHex width (File.open (fileText ls rest)) = some ([], 0) := by
  rw [readHex_lines width _ _ hok hb hend hlen, tail8 width hw]
  obtain ⟨j1, j2⟩ := linesSt8 width hw _ Hex.init hok
  rw [j1, j2]
  have : ∀ (ls : List Line) (base : Nat), (∀ x ∈ ls, x.typ = 0 → ¬ x.good) → stores base ls = [] := by
    intro ls
    induction ls with
    | nil => intros; rfl
    | cons x xs ih =>
      intro base h
      have ih' := fun b => ih b (fun y hy => h y (by simp [hy]))
      unfold stores
      simp only [ih']
      by_cases h0 : x.typ = 0
      · simp [h0, h x (by simp) h0]
      · simp [h0]
  rw [this _ _ hbad]
  rfl

/-- The text of a C string. -/
def chars (s : String) : List Nat := s.toList.map Char.toNat

/-- C26 is false when the length byte is altered: `:020000007F80FF` is a right
record of two bytes; with length 01 it is accepted, and the first byte is
stored. -/
theorem c26_length_false :
    readHex 8 (File.open (chars ":02000000807FFF\n:00000001FF\n")) = some ([(0, 0x80), (1, 0x7f)], 2) ∧
    readHex 8 (File.open (chars ":01000000807FFF\n:00000001FF\n")) = some ([(0, 0x80)], 1) := by
  constructor <;> decide +kernel

/-- Characters which are not digits are accepted: this record is not HEX at
all. -/
theorem c26_digits_false :
    readHex 8 (File.open (chars ":01xx!!00 7-8\n:00000001FF\n")) = some ([(0, 7)], 1) := by decide +kernel

/-! ## C27 -/

/-- C27 for memories of at most 8 bits: a file of right records is stored as
specified (addresses modulo 2^32). -/
theorem c27_bytes_partial (width : Nat) (hw : width ≤ 8) (ls : List Line) (rest : List Nat) (hok : ∀ r ∈ ls, r.Ok)
    (hb : ∀ c ∈ rest, c < 256)
    (hend : (∃ r ∈ ls, r.typ = 1) ∨ (rest ≠ [] ∧ ∀ c ∈ rest, c ≠ 58)) (hlen : ls ≠ [] ∨ 2 ≤ rest.length) :
    readHex width (File.open (fileText ls rest)) =
      some ((stores 0 ls).map (fun c => (c.1 % 2 ^ 32, c.2)), (stores 0 ls).length) := by
  rw [readHex_lines width _ _ hok hb hend hlen, tail8 width hw]
  obtain ⟨j1, j2⟩ := linesSt8 width hw _ Hex.init hok
  rw [j1, j2]
  simp [Hex.init, wrap, u32]

/-- C27 for memories of at most 8 bits, contents: after loading, every element
holds what the file stores in it last, or its old contents. -/
theorem c27_chip_partial (env : Env) (is : InSpec) (w : World) (k : Nat) (ht : is.tgt = .chip k) (hp : is.Plain)
    (h1 : 1 ≤ (env.chips k).width) (h2 : (env.chips k).width ≤ 8) (ls : List Line) (rest : List Nat) (hok : ∀ r ∈ ls, r.Ok)
    (hb : ∀ c ∈ rest, c < 256)
    (hend : (∃ r ∈ ls, r.typ = 1) ∨ (rest ≠ [] ∧ ∀ c ∈ rest, c ≠ 58)) (hlen : ls ≠ [] ∨ 2 ≤ rest.length) :
    ∃ w', w.loadHex env is (fileText ls rest) = some w' ∧
      (∀ a, a < (env.chips k).size → chipRead env w' k a =
        match lastStore ((stores 0 ls).map (fun c => (c.1 % 2 ^ 32, c.2))) a with
        | some v => v % 2 ^ (env.chips k).width
        | none => chipRead env w k a) ∧
      (∀ k' a, k' ≠ k → chipRead env w' k' a = chipRead env w k' a) ∧ w'.spaces = w.spaces := by
  unfold World.loadHex
  have hwid : is.width env w = (env.chips k).width := by unfold InSpec.width; rw [ht]
  rw [hwid, c27_bytes_partial _ h2 ls rest hok hb hend hlen]
  refine ⟨_, rfl, ?_⟩
  have hbytes : ∀ (ls : List Line) (base : Nat), (∀ r ∈ ls, r.Ok) → ∀ c ∈ stores base ls, c.2 < 256 := by
    intro ls
    induction ls with
    | nil => intro base _ c hc; simp [stores] at hc
    | cons r rs ih =>
      intro base hok c hc
      have ih' := fun b => ih b (fun x hx => hok x (by simp [hx])) c
      unfold stores at hc
      split at hc
      · simp at hc
      · split at hc
        · split at hc
          · simp only [List.mem_append] at hc
            rcases hc with hc | hc
            · obtain ⟨i, hi, rfl⟩ := seqAt_mem hc
              apply (hok r (by simp)).data
              rw [List.getD_eq_getElem?_getD, List.getElem?_eq_getElem hi]
              exact List.getElem_mem _
            · exact ih' _ hc
          · split at hc
            · exact ih' _ hc
            · exact ih' _ hc
        · exact ih' _ hc
  refine load_chip env is w k ht hp h1 (by omega) _ ?_
  intro c hc
  simp only [List.mem_map] at hc
  obtain ⟨c', hc', rfl⟩ := hc
  have := hbytes ls 0 hok c' hc'
  exact ⟨by simp only; omega, by simp only; omega⟩

/-- C27 for memories of 9..16 bits (`k = 2`) and 25..32 bits (`k = 4`), files
without extended address records, whole words in every record: the words are
stored as specified - but after that the loader stores one more word, a zero, at
the address field of the end record. -/
theorem c27_words_partial (width k : Nat) (hk : wordBytes width k) (ws : Line → List Nat) (ls : List Line) (rest : List Nat)
    (hok : ∀ r ∈ ls, r.Ok ∧ r.typ ≠ 4 ∧ (r.typ = 0 → r.data = le k (ws r) ∧ ∀ w ∈ ws r, w < 256 ^ k))
    (hb : ∀ c ∈ rest, c < 256) (hend : ∃ r ∈ ls, r.typ = 1) (h0 : ∀ r ∈ ls, r.typ = 1 → r.addr = 0) :
    ∃ n, readHex width (File.open (fileText ls rest)) =
      some ((storesWords k ws ls).map (fun c => (c.1 % 2 ^ 32, c.2)) ++ [(0, 0)], n) := by
  refine ⟨(linesSt width Hex.init ls).written, ?_⟩
  have hne : ls ≠ [] := by rintro rfl; simp at hend
  rw [readHex_lines width ls rest (fun r hr => (hok r hr).1) hb (Or.inl hend) (Or.inl hne)]
  obtain ⟨c1, c2, c3⟩ := linesW width k hk ws ls Hex.init ⟨rfl, rfl⟩ rfl hok
  have hw8 : 8 < width := by rcases hk with h | h <;> omega
  rw [tail_clean width hw8 _ c1, c2]
  obtain ⟨r, hr, hr1⟩ := hend
  obtain ⟨r', hr', h1, h2⟩ := c3 r hr hr1
  rw [h2, h0 r' hr' h1]
  rfl

/-- ... so C27 is false for every such file which stores a non-zero word at
address 0: after loading it into a chip, element 0 is zero. -/
theorem c27_word0_false (env : Env) (is : InSpec) (w : World) (c k : Nat) (ht : is.tgt = .chip c) (hp : is.Plain)
    (hk : wordBytes (env.chips c).width k) (hsz : 0 < (env.chips c).size)
    (ws : Line → List Nat) (ls : List Line) (rest : List Nat)
    (hok : ∀ r ∈ ls, r.Ok ∧ r.typ ≠ 4 ∧ (r.typ = 0 → r.data = le k (ws r) ∧ ∀ w ∈ ws r, w < 256 ^ k))
    (hb : ∀ c ∈ rest, c < 256) (hend : ∃ r ∈ ls, r.typ = 1) (h0 : ∀ r ∈ ls, r.typ = 1 → r.addr = 0) :
    ∃ w', w.loadHex env is (fileText ls rest) = some w' ∧ chipRead env w' c 0 = 0 := by
  obtain ⟨n, hn⟩ := c27_words_partial _ k hk ws ls rest hok hb hend h0
  unfold World.loadHex
  have hwid : is.width env w = (env.chips c).width := by unfold InSpec.width; rw [ht]
  rw [hwid, hn]
  refine ⟨_, rfl, ?_⟩
  have h1 : 1 ≤ (env.chips c).width ∧ (env.chips c).width ≤ 32 := by rcases hk with h | h <;> omega
  simp only [World.setRoms, List.foldl_append, List.foldl_cons, List.foldl_nil]
  generalize List.foldl (fun w (c : Nat × Nat) => World.setRom env is w c.1 c.2) w _ = w1
  rw [setRom_chip ht hp _ _ _ (by omega)]
  unfold chipRead
  rw [chipGet_elem env _ c 0 hsz, chipSet_elem env.chips _ _ _ _ h1.1 h1.2, if_pos ⟨rfl, rfl, hsz⟩]
  simp

/-- C27 is false for extended addresses of wide memories: the byte address
0x10000 is word 0x8000, but the loader stores it at word 0x10000 (the base is not
divided). -/
theorem c27_base_false :
    readHex 16 (File.open (chars ":020000040001F9\n:020000003412B8\n:00000001FF\n")) =
      some ([(0x10000, 0x1234), (0, 0)], 1) := by decide +kernel

/-- C27 is false for 24-bit memories: addresses are divided by 3 but words are
made of four bytes. -/
theorem c27_24bit_false :
    readHex 24 (File.open (chars ":06000000112233445566" ++ chars "95\n:00000001FF\n")) =
      some ([(0, 0x44332211), (0, 0x6655)], 1) := by decide +kernel

/-- C27 is false for extended segment addresses (type 2): they are ignored. -/
theorem c27_segment_false :
    readHex 8 (File.open (chars ":020000021000EC\n:0100000055AA\n:00000001FF\n")) = some ([(0, 0x55)], 1) := by decide +kernel

/-- An odd byte of a record is completed by the first byte of the next record,
which may be anywhere. -/
theorem c27_odd_false :
    readHex 16 (File.open (chars ":0100000011EE\n:0200200022338" ++ chars "9\n:00000001FF\n")) =
      some ([(0x10, 0x2211), (0, 0x33)], 1) := by decide +kernel

/-! ## Examples -/

/-- A dump that starts inside a line, and its load. -/
example : readHex 8 (File.open (dumpI (fun a => a * 7) 0 255 30 40 16)) =
    some (area (fun a => a * 7 % 256) 30 11, 11) :=
  c25_stores (fun a => a * 7) 0 255 30 40 16 8 30 40 (by decide) (by decide) (by decide) (by decide) (by decide) (by decide)

/-- A record of three bytes as in `:03F00000112233A7`. -/
def exLine (gap : List Nat) : Line :=
  { gap := gap, text := [48, 51, 70, 48, 48, 48, 48, 48, 49, 49, 50, 50, 51, 51, 65, 55], addr := 0xf000, typ := 0, data := [0x11, 0x22, 0x33], sum := 0xa7 }

theorem exLine_ok (gap : List Nat) (h : ∀ c ∈ gap, c ≠ 58 ∧ c < 256) : (exLine gap).Ok ∧ (exLine gap).good := by
  refine ⟨⟨h, ?_, by simp [exLine], by simp [exLine], by simp [exLine], by simp [exLine], by simp [exLine]⟩, by simp [Line.good, Line.bytes, exLine]⟩
  have d0 : digit 48 = some 0 := rfl
  have d3 : digit 51 = some 3 := rfl
  have dF : digit 70 = some 15 := rfl
  have d1 : digit 49 = some 1 := rfl
  have d2 : digit 50 = some 2 := rfl
  have dA : digit 65 = some 10 := rfl
  have d7 : digit 55 = some 7 := rfl
  have := Spells.cons d0 d3 (Spells.cons dF d0 (Spells.cons d0 d0 (Spells.cons d0 d0 (Spells.cons d1 d1
    (Spells.cons d2 d2 (Spells.cons d3 d3 (Spells.cons dA d7 Spells.nil)))))))
  simpa [exLine, Line.bytes] using this

example : readHex 8 (File.open (fileText [exLine [10], endLine [13, 10]] [])) =
    some ([(0xf000, 0x11), (0xf001, 0x22), (0xf002, 0x33)], 3) := by
  rw [c27_bytes_partial 8 (by decide) _ _ (by
    intro r hr
    simp only [List.mem_cons, List.not_mem_nil, or_false] at hr
    rcases hr with rfl | rfl
    · exact (exLine_ok [10] (by simp)).1
    · exact endLine_ok _ (by simp)) (by simp) (Or.inl ⟨endLine [13, 10], by simp, rfl⟩) (Or.inl (by simp))]
  have := (exLine_ok [10] (by simp)).2
  have e : stores 0 [exLine [10], endLine [13, 10]] = [(0xf000, 0x11), (0xf001, 0x22), (0xf002, 0x33)] := by
    simp [stores, this, show (exLine [10]).typ = 0 from rfl, show (endLine [13, 10]).typ = 1 from rfl,
      show (exLine [10]).addr = 0xf000 from rfl, show (exLine [10]).data = [0x11, 0x22, 0x33] from rfl, seqAt]
  rw [e]; rfl

/-- A file whose middle record has its first data byte changed (11 to 12). -/
example : ∃ r' : Line, r'.Ok ∧ r'.bytes = (exLine [10]).bytes.set 4 0x12 := by
  refine ⟨{ gap := [10], text := [48, 51, 70, 48, 48, 48, 48, 48, 49, 50, 50, 50, 51, 51, 65, 55], addr := 0xf000, typ := 0, data := [0x12, 0x22, 0x33], sum := 0xa7 },
    ⟨by simp, ?_, by simp, by simp, by simp, by simp, by simp⟩, rfl⟩
  have d0 : digit 48 = some 0 := rfl
  have d3 : digit 51 = some 3 := rfl
  have dF : digit 70 = some 15 := rfl
  have d1 : digit 49 = some 1 := rfl
  have d2 : digit 50 = some 2 := rfl
  have dA : digit 65 = some 10 := rfl
  have d7 : digit 55 = some 7 := rfl
  exact Spells.cons d0 d3 (Spells.cons dF d0 (Spells.cons d0 d0 (Spells.cons d0 d0 (Spells.cons d1 d2
    (Spells.cons d2 d2 (Spells.cons d3 d3 (Spells.cons dA d7 Spells.nil)))))))

/-- Words of 16 bits. -/
def wLine : Line :=
  { gap := [], text := [48, 50, 48, 48, 48, 48, 48, 48, 51, 52, 49, 50, 66, 56], addr := 0, typ := 0, data := [0x34, 0x12], sum := 0xb8 }

theorem wLine_ok : wLine.Ok := by
  refine ⟨by simp [wLine], ?_, by simp [wLine], by simp [wLine], by simp [wLine], by simp [wLine], by simp [wLine]⟩
  have d0 : digit 48 = some 0 := rfl
  have d1 : digit 49 = some 1 := rfl
  have d2 : digit 50 = some 2 := rfl
  have d3 : digit 51 = some 3 := rfl
  have d4 : digit 52 = some 4 := rfl
  have dB : digit 66 = some 11 := rfl
  have d8 : digit 56 = some 8 := rfl
  exact Spells.cons d0 d2 (Spells.cons d0 d0 (Spells.cons d0 d0 (Spells.cons d0 d0 (Spells.cons d3 d4
    (Spells.cons d1 d2 (Spells.cons dB d8 Spells.nil))))))

example : ∃ n, readHex 16 (File.open (fileText [wLine, endLine [10]] [])) = some ([(0, 0x1234), (0, 0)], n) := by
  obtain ⟨n, h⟩ := c27_words_partial 16 2 (Or.inl ⟨by decide, by decide, rfl⟩) (fun _ => [0x1234]) [wLine, endLine [10]] [] (by
    intro r hr
    simp only [List.mem_cons, List.not_mem_nil, or_false] at hr
    rcases hr with rfl | rfl
    · exact ⟨wLine_ok, by simp [wLine], fun _ => ⟨by decide, by simp⟩⟩
    · exact ⟨endLine_ok _ (by simp), by simp [endLine], by simp [endLine]⟩) (by simp) ⟨endLine [10], by simp, rfl⟩ (by
    intro r hr h1
    simp only [List.mem_cons, List.not_mem_nil, or_false] at hr
    rcases hr with rfl | rfl
    · simp [wLine] at h1
    · rfl)
  refine ⟨n, ?_⟩
  rw [h]
  have hg : wLine.good := by decide
  simp [storesWords, hg, show wLine.typ = 0 from rfl, show (endLine [10]).typ = 1 from rfl, show wLine.addr = 0 from rfl, seqAt]

end Ucsim.Props
