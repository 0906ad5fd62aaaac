import Verif.Model.Sha1
import Verif.Spec.Sha1

/-!
# The model of SHA-1 is the SHA-1 of FIPS 180-4
-/

namespace Stix
open Spec.Fips

theorem fips_add (x y : Word) : Sha1.add x.toNat y.toNat = (x + y).toNat := by
  rw [BitVec.toNat_add]; rfl

theorem fips_rotl {n : Nat} (h : n < 32) (x : Word) : Sha1.rotl n x.toNat = (x.rotateLeft n).toNat := by
  rw [BitVec.toNat_rotateLeft, Sha1.rotl, show (0x100000000 : Nat) = 2 ^ 32 from rfl, Nat.or_mod_two_pow,
    Nat.mod_eq_of_lt h, Nat.mod_eq_of_lt (a := x.toNat >>> _)]
  exact Nat.lt_of_le_of_lt (Nat.shiftRight_le _ _) x.isLt

theorem fips_compl (x : Word) : Sha1.compl x.toNat = (~~~x).toNat := by
  rw [BitVec.toNat_not]; rfl

theorem fips_round (t : Nat) (x y z : Word) :
    Sha1.round t x.toNat y.toNat z.toNat = (f t x y z + K t).toNat := by
  unfold Sha1.round f K
  split
  · rw [fips_compl, ← BitVec.toNat_and, ← BitVec.toNat_and, ← BitVec.toNat_xor, ← fips_add]; rfl
  split
  · rw [← BitVec.toNat_xor, ← BitVec.toNat_xor, ← fips_add]; rfl
  split
  · simp only [← BitVec.toNat_and, ← BitVec.toNat_xor]; rw [← fips_add]; rfl
  · rw [← BitVec.toNat_xor, ← BitVec.toNat_xor, ← fips_add]; rfl

theorem fips_force {α : Type} (n : Nat) (g : Nat → α) : Sha1.force n g = g n := by
  cases n <;> rfl

/-- The same words as numbers. -/
def fipsState (v : Five) : Sha1.State := ⟨v.a.toNat, v.b.toNat, v.c.toNat, v.d.toNat, v.e.toNat⟩

/-- The sixteen words of the schedule from an index on. -/
def fipsWindow (M : Nat → Word) (t : Nat) : List Nat := (List.range 16).map fun i => (W M (t + i)).toNat

theorem fips_window_succ (M : Nat → Word) (t : Nat) :
    ∃ w, fipsWindow M t = (W M t).toNat :: w ∧
      fipsWindow M (t + 1) = w ++ [Sha1.rotl 1 (w.getD 12 0 ^^^ w.getD 7 0 ^^^ w.getD 1 0 ^^^ (W M t).toNat)] := by
  refine ⟨(List.range 15).map fun i => (W M (t + 1 + i)).toNat, ?_, ?_⟩
  · unfold fipsWindow
    rw [List.range_succ_eq_map]
    simp [Nat.add_assoc, Nat.add_comm 1]
  · unfold fipsWindow
    rw [List.range_succ, List.map_append]
    congr 1
    simp only [List.map_cons, List.map_nil, List.cons.injEq, and_true]
    have e : W M (t + 1 + 15) = (W M (t + 13) ^^^ W M (t + 8) ^^^ W M (t + 2) ^^^ W M t).rotateLeft 1 := by
      rw [W, if_neg (by omega)]
      rfl
    rw [e, ← fips_rotl (by decide), BitVec.toNat_xor, BitVec.toNat_xor, BitVec.toNat_xor]
    rfl

theorem fips_steps (M : Nat → Word) (H : Five) : ∀ n t,
    Sha1.steps n t (fipsWindow M t) (fipsState (vars M H t)) = fipsState (vars M H (t + n))
  | 0, t => by unfold Sha1.steps; rfl
  | n + 1, t => by
    obtain ⟨w, h1, h2⟩ := fips_window_succ M t
    rw [h1]
    unfold Sha1.steps
    rw [fips_force, fips_force, fips_force, ← h2, show t + (n + 1) = t + 1 + n by omega,
      ← fips_steps M H n (t + 1)]
    congr 1
    rw [show vars M H (t + 1) = ⟨(vars M H t).a.rotateLeft 5 + f t (vars M H t).b (vars M H t).c (vars M H t).d +
      (vars M H t).e + K t + W M t, (vars M H t).a, (vars M H t).b.rotateLeft 30, (vars M H t).c,
      (vars M H t).d⟩ from rfl]
    generalize vars M H t = v
    simp only [fipsState, fips_rotl (show 5 < 32 by decide), fips_rotl (show 30 < 32 by decide), fips_round,
      fips_add, Sha1.State.mk.injEq, and_true]
    congr 1
    ac_rfl

theorem fips_block (M : Nat → Word) (H : Five) :
    Sha1.block (fipsState H) ((List.range 16).map fun i => (M i).toNat) =
      fipsState (let v := vars M H 80; ⟨v.a + H.a, v.b + H.b, v.c + H.c, v.d + H.d, v.e + H.e⟩) := by
  have e : ((List.range 16).map fun i => (M i).toNat) = fipsWindow M 0 := by
    unfold fipsWindow
    apply List.map_congr_left
    intro i hi
    rw [W, if_pos (by simpa using List.mem_range.1 hi), Nat.zero_add]
  have h := fips_steps M H 80 0
  rw [show vars M H 0 = H from rfl, Nat.zero_add] at h
  unfold Sha1.block
  rw [e, h]
  simp only [fipsState, fips_add]
  simp only [BitVec.add_comm]

theorem fips_word (p : List UInt8) (i : Nat) :
    (wordAt p i).toNat = Sha1.word (p.getD i 0) (p.getD (i+1) 0) (p.getD (i+2) 0) (p.getD (i+3) 0) := by
  have h : ∀ c : UInt8, c.toNat < 256 := fun c => c.toNat_lt
  have h0 := h (p.getD i 0); have h1 := h (p.getD (i+1) 0); have h2 := h (p.getD (i+2) 0)
  have h3 := h (p.getD (i+3) 0)
  unfold wordAt Sha1.word
  rw [BitVec.toNat_ofNat, Nat.mod_eq_of_lt] <;> omega

theorem fips_words : ∀ (n : Nat) (p : List UInt8), p.length = 4 * n →
    Sha1.words p = (List.range n).map fun i => (wordAt p (4 * i)).toNat
  | 0, p, h => by
    have e : p = [] := List.length_eq_zero_iff.1 (by simpa using h)
    subst e; rfl
  | n + 1, p, h => by
    match p, h with
    | a :: b :: c :: d :: l, h =>
      have ih := fips_words n l (by simp only [List.length_cons] at h; omega)
      rw [List.range_succ_eq_map, Sha1.words, ih, List.map_cons, List.map_map]
      rw [fips_word]
      congr 1

theorem fips_blocks {p : List UInt8} {N : Nat} (hp : p.length = 64 * N) : ∀ n i, i ≤ N → N - i ≤ n →
    Sha1.blocks n (fipsState (hash p i)) ((Sha1.words p).drop (16 * i)) = fipsState (hash p N) := by
  have hw := fips_words (16 * N) p (by omega)
  have hl : (Sha1.words p).length = 16 * N := by rw [hw]; simp
  intro n
  induction n with
  | zero =>
    intro i h1 h2
    have : i = N := by omega
    subst this; rfl
  | succ n ih =>
    intro i h1 h2
    unfold Sha1.blocks
    by_cases he : i = N
    · subst he
      rw [if_pos (List.drop_eq_nil_of_le (by omega))]
    · have hb : ((Sha1.words p).drop (16 * i)).take 16 =
          (List.range 16).map fun t => (wordAt p (64 * i + 4 * t)).toNat := by
        apply List.ext_getElem
        · simp; omega
        · intro t h3 h4
          simp only [hw, List.getElem_take, List.getElem_drop, List.getElem_map, List.getElem_range]
          congr 2; omega
      rw [if_neg, hb, fips_block, List.drop_drop]
      · have := ih (i + 1) (by omega) (by omega)
        rwa [Nat.mul_add, Nat.mul_one] at this
      · intro h
        have := congrArg List.length h
        rw [List.length_drop, hl, List.length_nil] at this
        omega

theorem fips_bytes (w : Word) : Sha1.bytes w.toNat = bigEndian 4 w := by
  have hr : List.range 4 = [0, 1, 2, 3] := rfl
  simp [Sha1.bytes, bigEndian, Nat.shiftRight_eq_div_pow, hr]

theorem fips_pad (m : List UInt8) : Sha1.pad m = padded m := by
  unfold Sha1.pad padded
  have e : (119 - m.length % 64) % 64 = (64 - (m.length + 1 + 8) % 64) % 64 := by omega
  rw [e, List.append_assoc, List.append_assoc, List.append_assoc]
  congr 1
  simp only [List.singleton_append, List.cons.injEq, true_and]
  congr 1
  generalize m.length = n
  have hb : (BitVec.ofNat 64 (8 * n)).toNat = 8 * n % 2 ^ 64 := BitVec.toNat_ofNat _ _
  simp only [Sha1.bytes, bigEndian, hb, Nat.shiftRight_eq_div_pow, List.cons_append, List.nil_append]
  have hu : ∀ a b : Nat, a % 256 = b % 256 → UInt8.ofNat a = UInt8.ofNat b := fun a b h => by
    apply UInt8.toNat_inj.1; simpa using h
  have hr : List.range 8 = [0, 1, 2, 3, 4, 5, 6, 7] := rfl
  rw [hr]
  simp only [List.map_cons, List.map_nil, List.cons.injEq, and_true]
  refine ⟨hu _ _ ?_, hu _ _ ?_, hu _ _ ?_, hu _ _ ?_, hu _ _ ?_, hu _ _ ?_, hu _ _ ?_, hu _ _ ?_⟩ <;>
    simp only [Nat.reduceSub, Nat.reducePow, Nat.sub_zero, Nat.div_one, Nat.sub_self] <;> omega

theorem padded_length (m : List UInt8) : (padded m).length = 64 * ((m.length + 9 + 63) / 64) := by
  simp [padded, bigEndian]; omega

/-- The model of SHA-1 is the standard's. -/
theorem sha1_fips (m : List UInt8) : Sha1.sha1 m = Spec.Fips.sha1 m := by
  have hp := padded_length m
  have h := fips_blocks (p := padded m) hp (m.length / 64 + 2) 0 (by omega) (by omega)
  have he : (padded m).length / 64 = (m.length + 9 + 63) / 64 := by omega
  simp only [Sha1.sha1, Spec.Fips.sha1]
  rw [Nat.mul_zero, List.drop_zero] at h
  rw [fips_pad, show Sha1.init = fipsState (hash (padded m) 0) from rfl, h, he]
  simp only [fipsState, fips_bytes]

end Stix
