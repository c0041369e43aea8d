import Verif.Proofs.AcceptTop
/-! A checker for derivations, used for the examples of Verif.Props.Accept. -/
namespace Verif.GI
open AI Spec

/-- Decides `PlainIdentifier`. -/
def plainB (l : Str) : Bool := isWordLit l

/-- Does the literal begin and end with the quote? -/
def quotedB (q : Char) : Str → Bool
  | [] => false
  | c :: r => c == q && r.getLast? == some q

/-- A sufficient test for `TermMatches`. -/
def termB : Term → Str → Bool
  | .kw k, l => l.map Char.toUpper == k.lit
  | .word s, l => l.map Char.toUpper == s
  | .ident, l => quotedB '`' l || (isWordLit l && Kw.all.all fun k => !(l.map Char.toUpper == k.lit))
  | .name, l => quotedB '`' l ||
      (isWordLit l && Kw.all.all fun k => !(l.map Char.toUpper == k.lit) || softWords.contains k)
  | .anyWord, l => quotedB '`' l || isWordLit l
  | .number, l => (litTok l).isNumeric
  | .string, l => quotedB '\'' l || quotedB '"' l
  | .param, l => l.head? == some '@' || l == ['?']

theorem quotedB_sound {q : Char} {l : Str} (h : quotedB q l = true) : ∃ b, l = q :: (b ++ [q]) := by
  cases l with
  | nil => simp [quotedB] at h
  | cons c r =>
    simp only [quotedB, Bool.and_eq_true, beq_iff_eq] at h
    obtain ⟨b, hb⟩ := List.getLast?_eq_some_iff.1 h.2
    exact ⟨b, by rw [h.1, hb]⟩

theorem termB_sound {a : Term} {l : Str} (h : termB a l = true) : TermMatches a l := by
  cases a with
  | kw k => simpa [termB, TermMatches, IsWord] using h
  | word s => simpa [termB, TermMatches, IsWord] using h
  | ident =>
    simp only [termB, Bool.or_eq_true, Bool.and_eq_true, List.all_eq_true] at h
    rcases h with h | ⟨h1, h2⟩
    · exact .inl (quotedB_sound h)
    · exact .inr ⟨(isWordLit_iff l).1 h1, fun k hk => by have := h2 k (mem_kw_all k); simp_all [IsWord]⟩
  | name =>
    simp only [termB, Bool.or_eq_true, Bool.and_eq_true, List.all_eq_true] at h
    rcases h with h | ⟨h1, h2⟩
    · exact .inl (quotedB_sound h)
    · exact .inr ⟨(isWordLit_iff l).1 h1, fun k hk => by have := h2 k (mem_kw_all k); simp_all [IsWord]⟩
  | anyWord =>
    simp only [termB, Bool.or_eq_true] at h
    rcases h with h | h
    · exact .inl (quotedB_sound h)
    · exact .inr ((isWordLit_iff l).1 h)
  | number => exact (isNumeric_iff (litTok l)).1 h
  | string =>
    simp only [termB, Bool.or_eq_true] at h
    rcases h with h | h
    · obtain ⟨b, hb⟩ := quotedB_sound h; exact ⟨'\'', b, .inl rfl, hb⟩
    · obtain ⟨b, hb⟩ := quotedB_sound h; exact ⟨'"', b, .inr rfl, hb⟩
  | param =>
    simp only [termB, Bool.or_eq_true, beq_iff_eq] at h
    rcases h with h | h
    · cases l with
      | nil => simp at h
      | cons c r => simp at h; exact .inl ⟨r, by rw [h]⟩
    · exact .inr h

/-- Follow a leftmost derivation, given by the numbers of the rules. -/
def derivB : Nat → List Sym → List Str → List Nat → Bool
  | 0, _, _, _ => false
  | _ + 1, [], u, _ => u.isEmpty
  | n + 1, .t a :: X, l :: u, cs => termB a l && derivB n X u cs
  | _ + 1, .t _ :: _, [], _ => false
  | n + 1, .nt k :: X, u, c :: cs => match (rules k)[c]? with
    | some r => derivB n (r ++ X) u cs
    | none => false
  | _ + 1, .nt _ :: _, _, [] => false

theorem derives_split : ∀ {X Y : List Sym} {u : List Str}, Derives (X ++ Y) u →
    ∃ v w, u = v ++ w ∧ Derives X v ∧ Derives Y w
  | [], _, u, h => ⟨[], u, rfl, .nil, h⟩
  | .t a :: X, Y, u, h => by
    cases h with
    | term hm hX =>
      obtain ⟨v, w, rfl, h1, h2⟩ := derives_split hX
      exact ⟨_ :: v, w, rfl, .term hm h1, h2⟩
  | .nt n :: X, Y, u, h => by
    cases h with
    | rule hr hd hX =>
      obtain ⟨v, w, rfl, h1, h2⟩ := derives_split hX
      exact ⟨_ ++ v, w, by simp, .rule hr hd h1, h2⟩

theorem derivB_sound : ∀ {n : Nat} {X : List Sym} {u : List Str} {cs : List Nat}, derivB n X u cs = true → Derives X u
  | 0, _, _, _, h => by simp [derivB] at h
  | _ + 1, [], u, _, h => by
    simp only [derivB, List.isEmpty_iff] at h
    subst h
    exact .nil
  | n + 1, .t a :: X, l :: u, cs, h => by
    simp only [derivB, Bool.and_eq_true] at h
    exact .term (termB_sound h.1) (derivB_sound h.2)
  | _ + 1, .t _ :: _, [], _, h => by simp [derivB] at h
  | n + 1, .nt k :: X, u, c :: cs, h => by
    simp only [derivB] at h
    split at h
    · next r hr =>
      obtain ⟨v, w, rfl, h1, h2⟩ := derives_split (derivB_sound h)
      exact .rule (List.mem_of_getElem? hr) h1 h2
    · simp at h
  | _ + 1, .nt _ :: _, _, [], h => by simp [derivB] at h

/-- A sufficient test for `MayTouch`. -/
def mayTouchB (l : Str) : Bool :=
  quotedB '\'' l || quotedB '"' l ||
    (!isWordLit l && Kw.all.any fun k => l == k.lit && !(Nat.beq k.ctorIdx Kw.sym_pipe.ctorIdx))

theorem mayTouchB_sound {l : Str} (h : mayTouchB l = true) : MayTouch l := by
  simp only [mayTouchB, Bool.or_eq_true, Bool.and_eq_true, List.any_eq_true] at h
  rcases h with (h | h) | ⟨h1, k, _, h2, h3⟩
  · obtain ⟨b, hb⟩ := quotedB_sound h; exact .inl ⟨'\'', b, .inl rfl, hb⟩
  · obtain ⟨b, hb⟩ := quotedB_sound h; exact .inl ⟨'"', b, .inr rfl, hb⟩
  · refine .inr ⟨k, by simpa using h2, ?_, ?_⟩
    · rintro rfl; simp at h3
    · intro h; rw [(isWordLit_iff l).2 h] at h1; simp at h1

/-- A sufficient test for `WordsApart` when there are no comments. -/
def apartB : List Token → Bool
  | a :: b :: l => (!isWordLit a.literal || !Interp.adjacentToks a b || mayTouchB b.literal) && !b.isComment &&
      apartB (b :: l)
  | _ => true

theorem apartB_sound {toks : List Token} (h : apartB toks = true) : WordsApart toks := by
  intro i j a b ho ha hb hw ht
  have key : ∀ (l : List Token) (i j : Nat), apartB l = true → OnlyCommentsBetween l i j → l[i]? = some a →
      l[j]? = some b → MayTouch b.literal := by
    intro l
    induction l with
    | nil => intro i j _ _ h; simp at h
    | cons x l ih =>
      intro i j h ho ha hb
      cases l with
      | nil =>
        have := ho.1
        cases j with
        | zero => omega
        | succ j => simp at hb
      | cons y l =>
        simp only [apartB, Bool.and_eq_true] at h
        cases i with
        | zero =>
          cases j with
          | zero => exact absurd ho.1 (by omega)
          | succ j =>
            cases j with
            | zero =>
              simp at ha hb
              subst ha hb
              have h1 := h.1.1
              have h2 : Interp.adjacentToks x y = true := by simpa [Interp.adjacentToks, Touches] using ht
              rw [(isWordLit_iff _).2 hw, h2] at h1
              exact mayTouchB_sound (by simpa using h1)
            | succ j =>
              have := ho.2 1 y (by omega) (by omega) (by simp)
              have h3 := h.1.2
              rw [this] at h3
              simp at h3
        | succ i =>
          cases j with
          | zero => exact absurd ho.1 (by omega)
          | succ j =>
            refine ih i j h.2 ⟨by have := ho.1; omega, fun k t h1 h2 h3 => ?_⟩ (by simpa using ha) (by simpa using hb)
            exact ho.2 (k + 1) t (by omega) (by omega) (by simpa using h3)
  exact .inr (key toks i j h ho ha hb)

end Verif.GI
