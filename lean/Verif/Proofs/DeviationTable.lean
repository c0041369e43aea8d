import Verif.Proofs.Witness1
import Verif.Proofs.Witness2
import Verif.Proofs.Witness3
import Verif.Proofs.Masks
/-! Every listed deviation has a witness. -/
namespace Verif.Dev
open Spec

/-- All listed deviations. -/
def listed (ty : NodeType) : List Deviation :=
  ((undeclared ty).map fun e => match e.2 with | .node => .node ty e.1 | .vec => .vec ty e.1) ++
  (omissible ty).map (.missing ty) ++ (otherTypes ty).map (.child ty)

/-- The type a deviation is about. -/
def devTy : Deviation → NodeType
  | .node ty _ | .vec ty _ | .missing ty _ | .child ty _ => ty

theorem mem_listed {d : Deviation} (h : d.Listed) : d ∈ listed (devTy d) := by
  cases d <;> simp only [Deviation.Listed, listed, devTy] at * <;> simp only [List.mem_append, List.mem_map]
  · exact .inl (.inl ⟨_, h, rfl⟩)
  · exact .inl (.inl ⟨_, h, rfl⟩)
  · exact .inl (.inr ⟨_, h, rfl⟩)
  · exact .inr ⟨_, h, rfl⟩

/-- A number for a deviation. -/
def devCode : Deviation → Nat
  | .node ty k => 4 * (1000 * ty.ctorIdx + k.ctorIdx)
  | .vec ty k => 4 * (1000 * ty.ctorIdx + k.ctorIdx) + 1
  | .missing ty k => 4 * (1000 * ty.ctorIdx + k.ctorIdx) + 2
  | .child ty k => 4 * (1000 * ty.ctorIdx + k.ctorIdx) + 3

theorem key_small (k : Key) : k.ctorIdx < 1000 := by
  have : ∀ k ∈ Key.all, k.ctorIdx < 1000 := by decide +kernel
  exact this k (AI.mem_key_all k)

theorem devCode_inj {a b : Deviation} (h : devCode a = devCode b) : a = b := by
  have hk : ∀ {t t' : NodeType} {k k' : Key}, 1000 * t.ctorIdx + k.ctorIdx = 1000 * t'.ctorIdx + k'.ctorIdx →
      t = t' ∧ k = k' := by
    intro t t' k k' h
    have h1 := key_small k
    have h2 := key_small k'
    have h3 : k.ctorIdx = k'.ctorIdx := by omega
    have h4 : t.ctorIdx = t'.ctorIdx := by omega
    refine ⟨?_, AI.key_inj h3⟩
    have e1 := AI.nodeType_get t (AI.mem_nodeType_all t)
    have e2 := AI.nodeType_get t' (AI.mem_nodeType_all t')
    rw [h4, e2] at e1
    exact (Option.some.inj e1).symm
  cases a <;> cases b <;> simp only [devCode] at h <;> rename_i t k t' k' <;> first
    | (exfalso; omega)
    | (have h' : 1000 * t.ctorIdx + k.ctorIdx = 1000 * t'.ctorIdx + k'.ctorIdx := by omega
       obtain ⟨rfl, rfl⟩ := hk h'; rfl)

/-- Codes of the deviations with a witness. -/
def shown : List Nat := (witnesses1 ++ witnesses2 ++ witnesses3).flatMap fun w => w.2.map devCode

/-- Is the number in the list? -/
def memNat (a : Nat) : List Nat → Bool
  | [] => false
  | b :: l => Nat.beq a b || memNat a l

theorem memNat_sound {a : Nat} {l : List Nat} (h : memNat a l = true) : a ∈ l := by
  induction l with
  | nil => cases h
  | cons b l ih =>
    simp only [memNat, Bool.or_eq_true] at h
    rcases h with h | h
    · rw [Nat.eq_of_beq_eq_true h]; simp
    · exact List.mem_cons_of_mem _ (ih h)

theorem all_shown : ∀ ty ∈ NodeType.all, ((listed ty).all fun d => memNat (devCode d) shown) = true := by
  decide +kernel

/-- The declarations rule out what is listed. -/
theorem all_forbidden : ∀ ty ∈ NodeType.all,
    (∀ e ∈ undeclared ty, e ∉ declared ty) ∧ (∀ k ∈ omissible ty, k ∈ mandatory ty) ∧
    (∀ k ∈ otherTypes ty, k ∈ (childTypes ty).map Prod.fst) := by decide +kernel

theorem forbidden {d : Deviation} (h : d.Listed) : d.Forbidden := by
  have h0 := all_forbidden (devTy d) (AI.mem_nodeType_all _)
  cases d <;> simp only [Deviation.Listed, Deviation.Forbidden, devTy] at *
  · exact h0.1 _ h
  · exact h0.1 _ h
  · exact h0.2.1 _ h
  · simpa using h0.2.2 _ h

theorem witness {d : Deviation} (h : d.Listed) :
    ∃ code ns, parse Unicode.sample code = .ok ns ∧ ∃ n ∈ ns, ∃ m ∈ nodes n, d.Holds m := by
  have h1 := memNat_sound (List.all_eq_true.1 (all_shown _ (AI.mem_nodeType_all _)) d (mem_listed h))
  obtain ⟨w, hw, h2⟩ := List.mem_flatMap.1 h1
  obtain ⟨d', hd, he⟩ := List.mem_map.1 h2
  rw [devCode_inj he] at hd
  have hs : shows w = true := by
    rcases List.mem_append.1 hw with hw | hw
    · rcases List.mem_append.1 hw with hw | hw
      · exact witnesses1_ok w hw
      · exact witnesses2_ok w hw
    · exact witnesses3_ok w hw
  obtain ⟨ns, h3, h4⟩ := shows_sound hs
  exact ⟨_, ns, h3, h4 d hd⟩

end Verif.Dev
