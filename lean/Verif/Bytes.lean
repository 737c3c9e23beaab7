import Verif.IntModel
/-!
# Object representations: little-endian bytes of fixed-size integers

The code moves raw bytes (`memcpy`, casts of `void*`); the model fixes the little-endian two's complement representation of
the x86-64 target. A byte is a `Nat` below 256.
-/
namespace Verif

/-- The `n` low-order bytes of `x` (two's complement), least significant first. -/
def leBytes : Nat → Int → List Nat
  | 0, _ => []
  | n + 1, x => (x % 256).toNat :: leBytes n (x / 256)

/-- The unsigned number represented by bytes, least significant first. -/
def leNat : List Nat → Int
  | [] => 0
  | b :: t => b + 256 * leNat t

/-- The signed (two's complement) number represented by bytes. -/
def leInt (bs : List Nat) : Int := if leNat bs < 256 ^ bs.length / 2 then leNat bs else leNat bs - 256 ^ bs.length

theorem leBytes_length : ∀ (n : Nat) (x : Int), (leBytes n x).length = n
  | 0, _ => rfl
  | n + 1, x => by simp [leBytes, leBytes_length n]

theorem leBytes_lt : ∀ (n : Nat) (x : Int), ∀ b ∈ leBytes n x, b < 256
  | 0, _ => by simp [leBytes]
  | n + 1, x => by
    intro b hb
    simp only [leBytes, List.mem_cons] at hb
    rcases hb with h | h
    · omega
    · exact leBytes_lt n _ b h

theorem emod_mul_split (x p : Int) : x % (256 * p) = x % 256 + 256 * (x / 256 % p) := by
  rw [Int.emod_def x (256 * p), Int.emod_def x 256, Int.emod_def (x / 256) p, ← Int.ediv_ediv_of_nonneg (by omega), Int.mul_assoc]
  generalize p * (x / 256 / p) = q
  omega

theorem leNat_leBytes : ∀ (n : Nat) (x : Int), leNat (leBytes n x) = x % 256 ^ n
  | 0, x => by simp [leBytes, leNat, Int.emod_one]
  | n + 1, x => by
    have ih := leNat_leBytes n (x / 256)
    simp only [leBytes, leNat, ih]
    have h1 : 0 ≤ x % 256 := by omega
    rw [Int.toNat_of_nonneg h1, Int.pow_succ, Int.mul_comm (256 ^ n) 256, emod_mul_split]

theorem leNat_range : ∀ (bs : List Nat), (∀ b ∈ bs, b < 256) → 0 ≤ leNat bs ∧ leNat bs < 256 ^ bs.length
  | [], _ => by simp [leNat]
  | b :: t, h => by
    have ih := leNat_range t (fun x hx => h x (List.mem_cons_of_mem _ hx))
    have hb := h b (by simp)
    simp only [leNat, List.length_cons, Int.pow_succ]
    generalize (256 : Int) ^ t.length = p at *
    omega

/-- Writing back the number read gives the bytes again. -/
theorem leBytes_leNat : ∀ (bs : List Nat), (∀ b ∈ bs, b < 256) → leBytes bs.length (leNat bs) = bs
  | [], _ => rfl
  | b :: t, h => by
    have ih := leBytes_leNat t (fun x hx => h x (List.mem_cons_of_mem _ hx))
    have hb := h b (by simp)
    simp only [leNat, List.length_cons, leBytes]
    rw [show ((b : Int) + 256 * leNat t) / 256 = leNat t by omega, ih,
      show (((b : Int) + 256 * leNat t) % 256).toNat = b by omega]

/-- Equal byte sequences of bytes exactly for equal numbers. -/
theorem leNat_inj (a b : List Nat) (ha : ∀ x ∈ a, x < 256) (hb : ∀ x ∈ b, x < 256) (hl : a.length = b.length)
    (h : leNat a = leNat b) : a = b := by
  rw [← leBytes_leNat a ha, ← leBytes_leNat b hb, h, hl]

/-- Unsigned read of a written value. -/
theorem leNat_of_range {n : Nat} {x : Int} (h0 : 0 ≤ x) (h1 : x < 256 ^ n) : leNat (leBytes n x) = x := by
  rw [leNat_leBytes, Int.emod_eq_of_lt h0 h1]

/-- Signed read of a written value. -/
theorem leInt_of_range {n : Nat} {x : Int} (hn : 0 < n) (h0 : -(256 ^ n / 2) ≤ x) (h1 : x < 256 ^ n / 2) : leInt (leBytes n x) = x := by
  unfold leInt
  rw [leNat_leBytes, leBytes_length]
  have he : (256 : Int) ^ n = 2 * (256 ^ n / 2) := by
    obtain ⟨m, rfl⟩ : ∃ m, n = m + 1 := ⟨n - 1, by omega⟩
    rw [Int.pow_succ]; omega
  generalize (256 : Int) ^ n / 2 = p at *
  rw [he]
  by_cases hx : 0 ≤ x
  · rw [Int.emod_eq_of_lt hx (by omega), if_pos (by omega)]
  · have : x % (2 * p) = x + 2 * p := by
      rw [← Int.add_emod_right, Int.emod_eq_of_lt (by omega) (by omega)]
    rw [this, if_neg (by omega)]; omega

theorem pow256 : (256 : Int) ^ 1 = 256 ∧ (256 : Int) ^ 2 = 65536 ∧ (256 : Int) ^ 4 = 4294967296 ∧ (256 : Int) ^ 8 = 18446744073709551616 := by decide

theorem leNat1 (x : Int) : leNat (leBytes 1 x) = x % 256 := by rw [leNat_leBytes, pow256.1]
theorem leNat2 (x : Int) : leNat (leBytes 2 x) = x % 65536 := by rw [leNat_leBytes, pow256.2.1]
theorem leNat4 (x : Int) : leNat (leBytes 4 x) = x % 4294967296 := by rw [leNat_leBytes, pow256.2.2.1]
theorem leNat8 (x : Int) : leNat (leBytes 8 x) = x % 18446744073709551616 := by rw [leNat_leBytes, pow256.2.2.2]
theorem leInt1 (x : Int) : leInt (leBytes 1 x) = wrapI8 x := by
  unfold leInt wrapI8; rw [leNat1, leBytes_length, pow256.1]; split <;> omega
theorem leInt2 (x : Int) : leInt (leBytes 2 x) = wrapI16 x := by
  unfold leInt wrapI16; rw [leNat2, leBytes_length, pow256.2.1]; split <;> omega
theorem leInt4 (x : Int) : leInt (leBytes 4 x) = wrapI32 x := by
  unfold leInt wrapI32; rw [leNat4, leBytes_length, pow256.2.2.1]; split <;> omega
theorem leInt8 (x : Int) : leInt (leBytes 8 x) = wrapI64 x := by
  unfold leInt wrapI64; rw [leNat8, leBytes_length, pow256.2.2.2]; split <;> omega

end Verif
