import Verif.TypesProps
import Verif.ValidTable
/-!
# C82: the shipped table of supported types
-/
namespace Verif.TableProps
open Verif.Types Verif.TypesProps

/-- The shipped table. -/
def shipped : List WStr := ValidTable.rows

/-- Reading a text as a number in base 256. -/
def readBase (a : Nat) (t : WStr) : Nat := t.foldl (fun a c => a * 256 + c) a

theorem read_digits (n : Nat) : ∀ (k : Nat) (acc : WStr), k < 256 ^ n → readBase 0 (ValidTable.digits n k acc) = readBase k acc := by
  induction n with
  | zero => intro k acc h; have : k = 0 := by simp at h; exact h
            subst this; rfl
  | succ n ih =>
    intro k acc h
    rw [ValidTable.digits]
    split
    · rename_i e; rw [e]
    · have hk : k / 256 < 256 ^ n := by
        rw [Nat.div_lt_iff_lt_mul (by omega)]; rw [Nat.pow_succ] at h; exact h
      rw [ih _ _ hk]
      show readBase (k / 256 * 256 + k % 256) acc = _
      have : k / 256 * 256 + k % 256 = k := by omega
      rw [this]

theorem text_inj (a b : Nat) (ha : a < 256 ^ 200) (hb : b < 256 ^ 200) (h : ValidTable.text a = ValidTable.text b) : a = b := by
  have h1 := read_digits 200 a [] ha
  have h2 := read_digits 200 b [] hb
  have h' : ValidTable.digits 200 a [] = ValidTable.digits 200 b [] := h
  rw [h'] at h1
  exact h1.symm.trans h2

/-- No two entries agree modulo `p`, with a bit set of the residues seen. -/
def distinctMod (p : Nat) : Nat → List Nat → Bool
  | _, [] => true
  | mask, a :: l => !(mask.testBit (a % p)) && distinctMod p (mask ||| (1 <<< (a % p))) l

theorem nodup_of_distinctMod (p : Nat) (l : List Nat) : ∀ mask, distinctMod p mask l = true → l.Nodup ∧ ∀ a ∈ l, mask.testBit (a % p) = false := by
  induction l with
  | nil => intro _ _; simp
  | cons a l ih =>
    intro mask h
    rw [distinctMod, Bool.and_eq_true] at h
    obtain ⟨h1, h2⟩ := ih _ h.2
    have h0 : mask.testBit (a % p) = false := by simpa using h.1
    refine ⟨?_, ?_⟩
    · rw [List.nodup_cons]
      refine ⟨fun ha => ?_, h1⟩
      have := h2 a ha
      rw [Nat.testBit_or, Nat.testBit_shiftLeft] at this
      simp at this
    · intro b hb
      rcases List.mem_cons.1 hb with e | hb
      · rw [e]; exact h0
      · have := h2 b hb
        rw [Nat.testBit_or, Bool.or_eq_false_iff] at this
        exact this.1

theorem codes_distinct : distinctMod 22479 0 ValidTable.codes = true := by decide +kernel

theorem codes_small : ValidTable.codes.all (fun k => Nat.ble (k + 1) 0x1000000000000000000000000000000000000000000000000000000000000000000000000000000000000000000000000000000000000000000000000000000000000000000000000000000000000000000000000000000000000000000000000000000000000000000000000000000000000000000000000000000000000000000000000000000000000000000000000000000000000) = true := by decide +kernel

theorem nodup_map_on (f : Nat → WStr) (l : List Nat) (hf : ∀ a ∈ l, ∀ b ∈ l, f a = f b → a = b) (h : l.Nodup) : (l.map f).Nodup := by
  induction l with
  | nil => simp
  | cons a l ih =>
    rw [List.nodup_cons] at h
    rw [List.map_cons, List.nodup_cons]
    refine ⟨?_, ih (fun x hx y hy => hf x (by simp [hx]) y (by simp [hy])) h.2⟩
    rw [List.mem_map]
    rintro ⟨b, hb, e⟩
    have := hf b (by simp [hb]) a (by simp) e
    subst this; exact h.1 hb

theorem shipped_nodup : shipped.Nodup := by
  have hs : ∀ k ∈ ValidTable.codes, k < 256 ^ 200 := by
    intro k hk
    have h := codes_small
    rw [List.all_eq_true] at h
    have := Nat.le_of_ble_eq_true (h k hk)
    refine Nat.lt_of_lt_of_le this ?_
    decide +kernel
  unfold shipped ValidTable.rows
  exact nodup_map_on _ _ (fun a ha b hb => text_inj a b (hs a ha) (hs b hb)) (nodup_of_distinctMod 22479 _ 0 codes_distinct).1

/-- **C82**: the shipped table loads completely: no row is repeated, so no row is dropped. -/
theorem C82_shipped : load [] shipped = (shipped, false) := C82_load_partial _ shipped_nodup

theorem texts_ok : ValidTable.codes.all (fun k => (ValidTable.text k).take 7 == [83, 121, 115, 116, 101, 109, 46] &&
    (ValidTable.text k).all fun c => !(Nat.beq c 38)) = true := by decide +kernel

theorem plain_of_no_amp (t : WStr) (h : (t.all fun c => !(Nat.beq c 38)) = true) : plain t = t := by
  induction t with
  | nil => rfl
  | cons c r ih =>
    rw [List.all_cons, Bool.and_eq_true] at h
    have hc : c ≠ 38 := by
      intro e; subst e; exact absurd h.1 (by decide)
    rw [plain, if_neg hc, ih h.2]

/-- **C82**: every row of the shipped table is effective: it is a `System.` name without reference characters, the only form in which
names are looked up. -/
theorem C82_rows_effective : ∀ r ∈ shipped, (∃ t, r = w "System." ++ t) ∧ plain r = r := by
  intro r hr
  unfold shipped ValidTable.rows at hr
  rw [List.mem_map] at hr
  obtain ⟨k, hk, e⟩ := hr
  have h := texts_ok
  rw [List.all_eq_true] at h
  have := h k hk
  rw [e, Bool.and_eq_true, beq_iff_eq] at this
  refine ⟨⟨r.drop 7, ?_⟩, plain_of_no_amp r this.2⟩
  have h7 : w "System." = r.take 7 := by rw [this.1]; decide
  rw [h7, List.take_append_drop]

end Verif.TableProps
