/- C88 and C89: names of uploaded data sets and of parameters. -/
import Verif.Model.Names
import Mathlib.Data.List.SplitOn
import Mathlib.Data.List.Infix

set_option linter.unusedSectionVars false
set_option linter.unusedSimpArgs false

namespace PD.Props
open PD

/-! ### C88 -/

/-- A small letter, a digit or an underscore. -/
def PlainChar (c : Char) : Prop := isLow c = true ∨ isDig c = true ∨ c = '_'

theorem plain_not_up {c : Char} (h : PlainChar c) : isUp c = false := by
  rcases h with h | h | rfl
  · simp only [isLow, isUp, Bool.and_eq_true, decide_eq_true_eq, Bool.and_eq_false_iff, decide_eq_false_iff_not] at *
    right
    intro hz
    exact absurd (Char.le_trans h.1 hz) (by decide : ¬ 'a' ≤ 'Z')
  · simp only [isDig, isUp, Bool.and_eq_true, decide_eq_true_eq, Bool.and_eq_false_iff, decide_eq_false_iff_not] at *
    left
    intro hz
    exact absurd (Char.le_trans hz h.2) (by decide : ¬ 'A' ≤ '9')
  · decide

theorem plain_ne {c : Char} (h : PlainChar c) : c ≠ '-' ∧ c ≠ '.' := by
  constructor <;> rintro rfl <;> revert h <;> simp [PlainChar] <;> decide

theorem plain_lower {c : Char} (h : PlainChar c) : c.toLower = c := by
  have hu := plain_not_up h
  unfold Char.toLower
  split
  · rename_i hc
    exfalso
    simp only [isUp, Bool.and_eq_false_iff, decide_eq_false_iff_not] at hu
    rcases hu with hu | hu
    · exact hu hc.1
    · exact hu hc.2
  · rfl

theorem splitAcronyms_fixed {w : List Char} (h : ∀ c ∈ w, isUp c = false) (prev : Option Char) :
    splitAcronyms prev w = w := by
  induction w generalizing prev with
  | nil => rfl
  | cons c cs ih =>
    have hc := h c (by simp)
    simp only [splitAcronyms, hc, Bool.and_false, Bool.false_and]
    rw [ih (fun x hx => h x (by simp [hx]))]
    cases prev <;> cases cs <;> simp

theorem splitWords_fixed {w : List Char} (h : ∀ c ∈ w, isUp c = false) (prev : Option Char) :
    splitWords prev w = w := by
  induction w generalizing prev with
  | nil => rfl
  | cons c cs ih =>
    have hc := h c (by simp)
    simp only [splitWords, hc, Bool.and_false]
    rw [ih (fun x hx => h x (by simp [hx]))]
    cases prev <;> simp

theorem underscore_plain {w : List Char} (h : ∀ c ∈ w, PlainChar c ∨ c = '.') : underscore w = w := by
  unfold underscore
  have hf : ∀ c ∈ w, isUp c = false ∧ c ≠ '-' ∧ c.toLower = c := by
    intro c hc
    rcases h c hc with h | rfl
    · exact ⟨plain_not_up h, (plain_ne h).1, plain_lower h⟩
    · decide
  rw [splitAcronyms_fixed (fun c hc => (hf c hc).1), splitWords_fixed (fun c hc => (hf c hc).1), List.map_map]
  conv_rhs => rw [← List.map_id w]
  apply List.map_congr_left
  intro c hc
  simp [(hf c hc).2.1, (hf c hc).2.2]

theorem mem_intercalate {ls : List (List Char)} {c : Char} (h : c ∈ List.intercalate ['-'] ls) :
    c = '-' ∨ ∃ l ∈ ls, c ∈ l := by
  induction ls with
  | nil => simp [List.intercalate] at h
  | cons l ls ih =>
    cases ls with
    | nil =>
      simp [List.intercalate] at h
      exact Or.inr ⟨l, by simp, h⟩
    | cons m ms =>
      rw [List.intercalate_cons_cons] at h
      simp only [List.mem_append, List.mem_cons, List.not_mem_nil, or_false] at h
      rcases h with (h | h) | h
      · exact Or.inr ⟨l, by simp, h⟩
      · exact Or.inl h
      · rcases ih h with h | ⟨x, hx, hc⟩
        · exact Or.inl h
        · exact Or.inr ⟨x, by simp [hx], hc⟩

/-- Paths of small letters, digits and underscores. -/
def PlainPath (parts : List (List Char)) : Prop := parts ≠ [] ∧ ∀ p ∈ parts, p ≠ [] ∧ ∀ c ∈ p, PlainChar c

theorem uploadName_plain {parts : List (List Char)} (h : PlainPath parts) :
    uploadName parts = .ok (List.intercalate ['-'] parts ++ riegeli) := by
  have e : parts.map underscore = parts := by
    conv_rhs => rw [← List.map_id parts]
    apply List.map_congr_left
    intro p hp
    exact underscore_plain (fun c hc => Or.inl ((h.2 p hp).2 c hc))
  have hne : List.intercalate ['-'] parts ≠ [] := by
    obtain ⟨p, ps, rfl⟩ := List.exists_cons_of_ne_nil h.1
    have := (h.2 p (by simp)).1
    cases ps with
    | nil => simpa [List.intercalate] using this
    | cons q qs => rw [List.intercalate_cons_cons]; simp
  have hdot : rfindDot (List.intercalate ['-'] parts) = none := by
    unfold rfindDot
    rw [Option.map_eq_none_iff, List.findIdx?_eq_none_iff]
    intro c hc
    rw [List.mem_reverse] at hc
    simp only [beq_eq_false_iff_ne]
    rcases mem_intercalate hc with rfl | ⟨p, hp, hc⟩
    · decide
    · exact (plain_ne ((h.2 p hp).2 c hc)).2
  unfold uploadName withSuffix
  rw [e, if_neg hne, hdot]

theorem plain_injective {ps qs : List (List Char)} (hp : PlainPath ps) (hq : PlainPath qs)
    (h : List.intercalate ['-'] ps = List.intercalate ['-'] qs) : ps = qs := by
  have no : ∀ {ls : List (List Char)}, PlainPath ls → ∀ l ∈ ls, '-' ∉ l :=
    fun hl l hm hc => (plain_ne ((hl.2 l hm).2 _ hc)).1 rfl
  rw [← List.splitOn_intercalate '-' (no hp) hp.1, ← List.splitOn_intercalate '-' (no hq) hq.1, h]

theorem uploadAll_spec {D T : Type} (load : List (List Char) → Except Err D) (convert : D → Except Err T) :
    ∀ (paths : List (List (List Char))) (bucket bucket' : List Char → Option T),
    uploadAll load convert paths bucket = .ok bucket' →
    ∀ n, (∀ p ∈ paths, uploadName p ≠ .ok n) → bucket' n = bucket n := by
  intro paths
  induction paths with
  | nil =>
    intro bucket bucket' h n _
    simp only [uploadAll, Except.ok.injEq] at h
    rw [h]
  | cons p ps ih =>
    intro bucket bucket' h n hn
    have hn' : ∀ q ∈ ps, uploadName q ≠ .ok n := fun q hq => hn q (by simp [hq])
    unfold uploadAll at h
    split at h
    · cases h
    · rename_i name hname
      split at h
      · exact ih bucket bucket' h n hn'
      · cases h
      · split at h
        · cases h
        · rw [ih _ bucket' h n hn']
          have : n ≠ name := by
            rintro rfl
            exact hn p (by simp) hname
          simp [this]

/-- Uploading data sets with different plain paths: every one that loads and converts is in the bucket afterwards,
under its own name, and nothing else in the bucket changes.
Missing for C88: other paths (see below). -/
theorem C88_kept_apart_partial {D T : Type} (load : List (List Char) → Except Err D)
    (convert : D → Except Err T) (paths : List (List (List Char))) (hnd : paths.Nodup)
    (hplain : ∀ p ∈ paths, PlainPath p) (bucket bucket' : List Char → Option T)
    (h : uploadAll load convert paths bucket = .ok bucket') :
    (∀ p ∈ paths, ∀ q ∈ paths, uploadName p = uploadName q → p = q) ∧
    (∀ p ∈ paths, ∀ d t, load p = .ok d → convert d = .ok t →
      ∃ name, uploadName p = .ok name ∧ bucket' name = some t) ∧
    ∀ n, (∀ p ∈ paths, uploadName p ≠ .ok n) → bucket' n = bucket n := by
  have hinj : ∀ p ∈ paths, ∀ q ∈ paths, uploadName p = uploadName q → p = q := by
    intro p hp q hq he
    rw [uploadName_plain (hplain p hp), uploadName_plain (hplain q hq), Except.ok.injEq,
      List.append_left_inj] at he
    exact plain_injective (hplain p hp) (hplain q hq) he
  refine ⟨hinj, ?_, uploadAll_spec load convert paths bucket bucket' h⟩
  clear hplain
  induction paths generalizing bucket with
  | nil => simp
  | cons p ps ih =>
    rw [List.nodup_cons] at hnd
    have hrec : ∀ b, uploadAll load convert ps b = .ok bucket' → ∀ q ∈ ps, ∀ d t, load q = .ok d →
        convert d = .ok t → ∃ name, uploadName q = .ok name ∧ bucket' name = some t :=
      fun b hb => ih hnd.2 b hb (fun a ha c hc => hinj a (by simp [ha]) c (by simp [hc]))
    unfold uploadAll at h
    split at h
    · cases h
    · rename_i name hname
      split at h
      · rename_i hload
        intro q hq d t hd ht
        rcases List.mem_cons.1 hq with rfl | hq
        · rw [hload] at hd; cases hd
        · exact hrec _ h q hq d t hd ht
      · cases h
      · rename_i d' hd'
        split at h
        · cases h
        · rename_i t' ht'
          intro q hq d t hd ht
          rcases List.mem_cons.1 hq with rfl | hq
          · rw [hd', Except.ok.injEq] at hd
            subst hd
            rw [ht', Except.ok.injEq] at ht
            subst ht
            refine ⟨name, hname, ?_⟩
            rw [uploadAll_spec load convert ps _ bucket' h name (fun r hr he => ?_)]
            · simp
            · have := hinj q (by simp) r (by simp [hr]) (hname.trans he.symm)
              subst this
              exact hnd.1 hr
          · exact hrec _ h q hq d t hd ht

theorem rfindDot_last (s x : List Char) (hx : '.' ∉ x) : rfindDot (s ++ '.' :: x) = some s.length := by
  unfold rfindDot
  have : (s ++ '.' :: x).reverse.findIdx? (fun c => c == '.') = some x.length := by
    rw [List.reverse_append, List.reverse_cons, List.append_assoc, List.findIdx?_append]
    have : x.reverse.findIdx? (fun c => c == '.') = none := by
      rw [List.findIdx?_eq_none_iff]
      intro c hc
      rw [List.mem_reverse] at hc
      simp only [beq_eq_false_iff_ne]
      rintro rfl
      exact hx hc
    rw [this]
    simp [List.findIdx?_cons]
  rw [this]
  simp

/-- What follows the last dot of a directory's name is lost. -/
theorem C88_suffix_lost (s x : List Char) (hs : s ≠ []) (hx : x ≠ []) (hsp : ∀ c ∈ s, PlainChar c ∨ c = '.')
    (hxp : ∀ c ∈ x, PlainChar c) : uploadName [s ++ '.' :: x] = .ok (s ++ riegeli) := by
  have e : underscore (s ++ '.' :: x) = s ++ '.' :: x := by
    apply underscore_plain
    intro c hc
    rcases List.mem_append.1 hc with h | h
    · exact hsp c h
    · rcases List.mem_cons.1 h with h | h
      · exact Or.inr h
      · exact Or.inl (hxp c h)
  have hd : '.' ∉ x := fun h => (plain_ne (hxp _ h)).2 rfl
  have hsl : 0 < s.length := List.length_pos_iff.2 hs
  have hxl : 0 < x.length := List.length_pos_iff.2 hx
  simp only [uploadName, List.map_cons, List.map_nil, e, List.intercalate_singleton, withSuffix]
  rw [if_neg (by simp), rfindDot_last s x hd]
  simp only
  rw [if_pos (by constructor; exact hsl; simp; omega)]
  simp

/-- So of two directories whose names differ only after the last dot, such as `run.1` and `run.2`, only the second
one uploaded remains. -/
theorem C88_overwritten {D T : Type} (load : List (List Char) → Except Err D) (convert : D → Except Err T)
    (s x y : List Char) (hs : s ≠ []) (hx : x ≠ []) (hy : y ≠ []) (hsp : ∀ c ∈ s, PlainChar c ∨ c = '.')
    (hxp : ∀ c ∈ x, PlainChar c) (hyp : ∀ c ∈ y, PlainChar c) (d₁ d₂ : D) (t₁ t₂ : T)
    (hl₁ : load [s ++ '.' :: x] = .ok d₁) (hl₂ : load [s ++ '.' :: y] = .ok d₂)
    (hc₁ : convert d₁ = .ok t₁) (hc₂ : convert d₂ = .ok t₂) :
    uploadAll load convert [[s ++ '.' :: x], [s ++ '.' :: y]] (fun _ => none) =
      .ok (fun n => if n = s ++ riegeli then some t₂ else none) := by
  simp only [uploadAll, C88_suffix_lost s x hs hx hsp hxp, C88_suffix_lost s y hs hy hsp hyp, hl₁, hl₂, hc₁, hc₂,
    Except.ok.injEq]
  funext n
  by_cases h : n = s ++ riegeli <;> simp [h]

/-- Dashes and underscores, and capitals and small letters, are not told apart either. -/
theorem C88_collisions : uploadName [['a', '-', 'b']] = uploadName [['a', '_', 'b']] ∧
    uploadName [['R', 'u', 'n']] = uploadName [['r', 'u', 'n']] ∧
    uploadName [['a', 'B']] = uploadName [['a', '_', 'b']] ∧
    uploadName [['r', '1', 'B']] = uploadName [['r', '1', '_', 'b']] ∧
    uploadName [['A', 'B', 'c']] = uploadName [['a', '_', 'b', 'c']] := by
  decide

example : PlainPath [['r', 'u', 'n', '_', '1'], ['s', 'c', 'a', 'n']] ∧
    uploadName [['r', 'u', 'n', '_', '1'], ['s', 'c', 'a', 'n']] =
      .ok ['r', 'u', 'n', '_', '1', '-', 's', 'c', 'a', 'n', '.', 'r', 'i', 'e', 'g', 'e', 'l', 'i'] := by
  refine ⟨⟨by simp, ?_⟩, by decide⟩
  intro p hp
  simp only [List.mem_cons, List.not_mem_nil, or_false] at hp
  rcases hp with rfl | rfl
  · refine ⟨by simp, fun c hc => ?_⟩
    simp only [List.mem_cons, List.not_mem_nil, or_false] at hc
    unfold PlainChar
    rcases hc with rfl | rfl | rfl | rfl | rfl <;> decide
  · refine ⟨by simp, fun c hc => ?_⟩
    simp only [List.mem_cons, List.not_mem_nil, or_false] at hc
    unfold PlainChar
    rcases hc with rfl | rfl | rfl | rfl <;> decide

/-! ### C89 -/

theorem replaceGo_skip (old new l r : List Char) : replaceGo old new l.length (l ++ r) = replaceGo old new 0 r := by
  induction l with
  | nil => rfl
  | cons c l ih => simpa [replaceGo] using ih

/-- Replacing one character. -/
theorem pyReplace_char (ch : Char) (new s : List Char) :
    pyReplace [ch] new s = s.flatMap (fun c => if c = ch then new else [c]) := by
  unfold pyReplace
  induction s with
  | nil => rfl
  | cons c s ih =>
    simp only [replaceGo, List.isPrefixOf, List.flatMap_cons, Bool.and_true]
    by_cases h : c = ch
    · subst h
      simp [ih]
    · have : ¬ ch = c := fun e => h e.symm
      simp [h, this, ih]

/-- Neither list begins with the other. -/
def Clash (a b : List Char) : Prop := ¬ a <+: b ∧ ¬ b <+: a

instance (a b : List Char) : Decidable (Clash a b) := by unfold Clash; infer_instance

theorem clash_append {a b r : List Char} (h : Clash a b) : ¬ a <+: b ++ r := by
  intro hp
  rcases List.prefix_or_prefix_of_prefix hp (List.prefix_append b r) with h1 | h1
  · exact h.1 h1
  · exact h.2 h1

/-- A beginning of the written-out string that does not reach into a block is a beginning of the string. -/
theorem prefix_of_blocks (f : Char → List Char) (B : List (List Char)) (hf : ∀ c, f c = [c] ∨ f c ∈ B) :
    ∀ (p : List Char) (k : List Char), (∀ p', p' <:+ p → p' ≠ [] → ∀ b ∈ B, Clash p' b) →
      p <+: k.flatMap f → p <+: k := by
  intro p
  induction p with
  | nil => intro k _ _; exact List.nil_prefix
  | cons x p ih =>
    intro k hc hp
    cases k with
    | nil => simpa using hp
    | cons c k =>
      rw [List.flatMap_cons] at hp
      rcases hf c with h | h
      · rw [h, List.singleton_append, List.cons_prefix_cons] at hp
        obtain ⟨rfl, hp⟩ := hp
        rw [List.cons_prefix_cons]
        exact ⟨rfl, ih k (fun p' h' => hc p' (h'.trans (List.suffix_cons x p))) hp⟩
      · exact absurd hp (clash_append (hc (x :: p) (List.suffix_refl _) (by simp) _ h))

/-- Passing over a block in which the pattern does not begin. -/
theorem replaceGo_block (old new : List Char) : ∀ (b r : List Char),
    (∀ b', b' <:+ b → b' ≠ [] → Clash old b') → replaceGo old new 0 (b ++ r) = b ++ replaceGo old new 0 r := by
  intro b
  induction b with
  | nil => intro r _; rfl
  | cons x b ih =>
    intro r h
    have h1 : old.isPrefixOf (x :: (b ++ r)) = false := by
      rw [← Bool.not_eq_true, List.isPrefixOf_iff_prefix]
      exact clash_append (h (x :: b) (List.suffix_refl _) (by simp))
    simp only [List.cons_append, replaceGo, h1, Bool.false_eq_true, if_false]
    rw [ih r (fun b' hb' => h b' (hb'.trans (List.suffix_cons x b)))]

/-- Putting a character back for its block. -/
theorem pyReplace_blocks (x : Char) (xs : List Char) (ch : Char) (f : Char → List Char) (B : List (List Char))
    (hch : f ch = x :: xs) (hf : ∀ c, c ≠ ch → f c = [c] ∨ f c ∈ B)
    (hB : ∀ b ∈ B, ∀ b', b' <:+ b → b' ≠ [] → Clash (x :: xs) b')
    (hP : ∀ p', p' <:+ xs → p' ≠ [] → ∀ b ∈ (x :: xs) :: B, Clash p' b) (k : List Char)
    (hk : ¬ (x :: xs) <:+: k) :
    pyReplace (x :: xs) [ch] (k.flatMap f) = k.flatMap (fun c => if c = ch then [ch] else f c) := by
  unfold pyReplace
  induction k with
  | nil => rfl
  | cons c k ih =>
    have hk' : ¬ (x :: xs) <:+: k := fun h => hk (h.trans (List.suffix_cons c k).isInfix)
    rw [List.flatMap_cons, List.flatMap_cons]
    by_cases hc : c = ch
    · subst hc
      rw [hch, if_pos rfl]
      have h1 : (x :: xs).isPrefixOf (x :: (xs ++ k.flatMap f)) = true := by
        rw [List.isPrefixOf_iff_prefix]
        exact List.prefix_append (x :: xs) _
      simp only [List.cons_append, replaceGo, h1, if_true, List.length_cons, Nat.add_sub_cancel]
      rw [replaceGo_skip, ih hk']
    · rw [if_neg hc]
      rcases hf c hc with h | h
      · have hpre : (x :: xs).isPrefixOf (c :: k.flatMap f) = false := by
          rw [← Bool.not_eq_true, List.isPrefixOf_iff_prefix, List.cons_prefix_cons]
          rintro ⟨rfl, hp⟩
          apply hk
          have := prefix_of_blocks f ((x :: xs) :: B) (fun d => by
            by_cases hd : d = ch
            · subst hd; right; rw [hch]; simp
            · rcases hf d hd with h | h
              · exact Or.inl h
              · exact Or.inr (by simp [h])) xs k hP hp
          exact ((List.cons_prefix_cons).2 ⟨rfl, this⟩).isInfix
        rw [h]
        simp only [List.cons_append, List.nil_append, replaceGo, hpre, Bool.false_eq_true, if_false]
        rw [ih hk']
      · rw [replaceGo_block _ _ _ _ (hB _ h), ih hk']

/-- What is written for a character. -/
def encoded (c : Char) : List Char := if c = '/' then dummySlash else if c = '~' then dummyTilde else [c]

theorem encode_eq (k : List Char) :
    pyReplace ['~'] dummyTilde (pyReplace ['/'] dummySlash k) = k.flatMap encoded := by
  rw [pyReplace_char, pyReplace_char, List.flatMap_assoc]
  congr 1
  funext c
  unfold encoded
  by_cases h : c = '/'
  · simp only [h, if_true]
    decide
  · by_cases h2 : c = '~'
    · simp [h, h2]
    · simp [h, h2]

/-- A name that contains neither of the two replacements. -/
def PlainName (k : List Char) : Prop := ¬ dummySlash <:+: k ∧ ¬ dummyTilde <:+: k

theorem decode_encode {k : List Char} (h : PlainName k) :
    pyReplace dummyTilde ['~'] (pyReplace dummySlash ['/'] (pyReplace ['~'] dummyTilde
      (pyReplace ['/'] dummySlash k))) = k := by
  rw [encode_eq]
  have tails : ∀ {P : List Char → Prop} {l : List Char}, (∀ p ∈ l.tails, P p) → ∀ p, p <:+ l → P p :=
    fun h p hp => h p ((List.mem_tails _ _).2 hp)
  have e1 : pyReplace dummySlash ['/'] (k.flatMap encoded) =
      k.flatMap (fun c => if c = '/' then ['/'] else encoded c) := by
    apply pyReplace_blocks 'd' _ '/' encoded [dummyTilde] rfl _ _ _ k h.1
    · intro c hc
      unfold encoded
      rw [if_neg hc]
      split
      · right; simp
      · exact Or.inl rfl
    · intro b hb
      simp only [List.mem_cons, List.not_mem_nil, or_false] at hb
      subst hb
      apply tails
      decide
    · apply tails
      decide
  rw [e1]
  have e2 : pyReplace dummyTilde ['~'] (k.flatMap (fun c => if c = '/' then ['/'] else encoded c)) =
      k.flatMap (fun c => if c = '~' then ['~'] else if c = '/' then ['/'] else encoded c) := by
    apply pyReplace_blocks 'd' _ '~' _ [] _ _ _ _ k h.2
    · rfl
    · intro c hc
      left
      unfold encoded
      by_cases h : c = '/' <;> simp [h, hc]
    · intro b hb
      cases hb
    · apply tails
      decide
  rw [e2]
  have : (fun c : Char => if c = '~' then ['~'] else if c = '/' then ['/'] else encoded c) = fun c => [c] := by
    funext c
    unfold encoded
    by_cases h : c = '~'
    · simp [h]
    · by_cases h2 : c = '/' <;> simp [h, h2]
  rw [this, List.flatMap_singleton']

theorem dictSet_new {V : Type} {d : List (List Char × V)} {k : List Char} (h : k ∉ d.map Prod.fst) (v : V) :
    dictSet d k v = d ++ [(k, v)] := by
  rw [dictSet, if_neg h]

theorem rekey_map {V : Type} (f : List Char → List Char) (d : List (List Char × V))
    (hnd : (d.map (fun e => f e.1)).Nodup) : rekey f d = d.map (fun e => (f e.1, e.2)) := by
  suffices h : ∀ (d acc : List (List Char × V)), (acc.map Prod.fst ++ d.map (fun e => f e.1)).Nodup →
      d.foldl (fun acc e => dictSet acc (f e.1) e.2) acc = acc ++ d.map (fun e => (f e.1, e.2)) by
    have := h d [] (by simpa using hnd)
    simpa [rekey] using this
  intro d
  induction d with
  | nil => intro acc _; simp
  | cons e d ih =>
    intro acc h
    rw [List.foldl_cons, dictSet_new, ih]
    · simp
    · simpa using h
    · intro hm
      rw [List.nodup_append] at h
      exact h.2.2 _ hm (f e.1) (by simp) rfl

theorem rekeys_map {V : Type} : ∀ (fs : List (List Char → List Char)) (d : List (List Char × V)),
    (d.map Prod.fst).Nodup →
    (∀ e ∈ d, ∀ e' ∈ d, fs.foldl (fun k f => f k) e.1 = fs.foldl (fun k f => f k) e'.1 → e.1 = e'.1) →
    fs.foldl (fun d f => rekey f d) d = d.map (fun e => (fs.foldl (fun k f => f k) e.1, e.2)) := by
  intro fs
  induction fs with
  | nil => intro d _ _; simp
  | cons f fs ih =>
    intro d hnd hinj
    have hnd' : (d.map (fun e => f e.1)).Nodup := by
      have := List.Nodup.map_on (l := d.map Prod.fst) (f := f) (fun a ha b hb hab => by
        obtain ⟨e, he, rfl⟩ := List.mem_map.1 ha
        obtain ⟨e', he', rfl⟩ := List.mem_map.1 hb
        exact hinj e he e' he' (by simp [hab])) hnd
      simpa [Function.comp_def] using this
    rw [List.foldl_cons, rekey_map f d hnd', ih]
    · simp [Function.comp_def]
    · simpa [Function.comp_def] using hnd'
    · intro e he e' he' h
      obtain ⟨a, ha, rfl⟩ := List.mem_map.1 he
      obtain ⟨b, hb, rfl⟩ := List.mem_map.1 he'
      simp only at h ⊢
      rw [hinj a ha b hb (by simpa using h)]

/-- A dictionary with distinct keys, all plain names. -/
def PlainDict {V : Type} (d : List (List Char × V)) : Prop := (d.map Prod.fst).Nodup ∧ ∀ e ∈ d, PlainName e.1

/-- A state all of whose dictionaries are plain. -/
def PlainState {V : Type} (s : NamedState V) : Prop :=
  PlainDict s.params ∧ ∀ fields, OptEntry.named fields ∈ s.optState → ∀ d, OptField.dict d ∈ fields → PlainDict d

theorem rekeys_plain {V : Type} {d : List (List Char × V)} (h : PlainDict d) :
    rekey (pyReplace dummyTilde ['~']) (rekey (pyReplace dummySlash ['/']) (rekey (pyReplace ['~'] dummyTilde)
      (rekey (pyReplace ['/'] dummySlash) d))) = d := by
  have hid : ∀ e ∈ d, [pyReplace ['/'] dummySlash, pyReplace ['~'] dummyTilde, pyReplace dummySlash ['/'],
      pyReplace dummyTilde ['~']].foldl (fun k f => f k) e.1 = e.1 := fun e he => decode_encode (h.2 e he)
  have := rekeys_map [pyReplace ['/'] dummySlash, pyReplace ['~'] dummyTilde, pyReplace dummySlash ['/'],
    pyReplace dummyTilde ['~']] d h.1 (fun e he e' he' heq => by rwa [hid e he, hid e' he'] at heq)
  simp only [List.foldl_cons, List.foldl_nil] at this
  rw [this]
  conv_rhs => rw [← List.map_id d]
  apply List.map_congr_left
  intro e he
  have := hid e he
  simp only [List.foldl_cons, List.foldl_nil] at this
  rw [this]
  rfl

/-- Saving and restoring gives back parameters and optimiser state when no name contains `dummy_slash` or
`dummy_tilde`.
Missing for C89: names containing them (see below). -/
theorem C89_round_trip_partial {V : Type} (s : NamedState V) (h : PlainState s) :
    uncleanState (cleanState s) = s := by
  obtain ⟨params, opt⟩ := s
  simp only [uncleanState, cleanState, sanitizeStateKeys, List.foldl_cons, List.foldl_nil, NamedState.rekey,
    NamedState.mk.injEq]
  refine ⟨rekeys_plain h.1, ?_⟩
  simp only [List.map_map]
  conv_rhs => rw [← List.map_id opt]
  apply List.map_congr_left
  intro e he
  cases e with
  | plain v => rfl
  | named fields =>
    simp only [Function.comp_apply, OptEntry.rekey, List.map_map, id_eq, OptEntry.named.injEq]
    conv_rhs => rw [← List.map_id fields]
    apply List.map_congr_left
    intro g hg
    cases g with
    | other v => rfl
    | dict d =>
      simp only [Function.comp_apply, OptField.rekey, id_eq, OptField.dict.injEq]
      exact rekeys_plain (h.2 fields he d hg)

/-- No saved parameter name has a slash or a tilde, whatever the names were. -/
theorem C89_clean {V : Type} (s : NamedState V) : ∀ e ∈ (cleanState s).params, '/' ∉ e.1 ∧ '~' ∉ e.1 := by
  have keys : ∀ (f : List Char → List Char) (d : List (List Char × V)), ∀ e ∈ rekey f d, ∃ e' ∈ d, e.1 = f e'.1 := by
    intro f d
    suffices h : ∀ (d acc : List (List Char × V)), ∀ e ∈ d.foldl (fun acc e => dictSet acc (f e.1) e.2) acc,
        (∃ e' ∈ acc, e.1 = e'.1) ∨ ∃ e' ∈ d, e.1 = f e'.1 by
      intro e he
      rcases h d [] e he with ⟨_, h, _⟩ | h
      · cases h
      · exact h
    intro d
    induction d with
    | nil => intro acc e he; exact Or.inl ⟨e, he, rfl⟩
    | cons a d ih =>
      intro acc e he
      rcases ih _ e he with ⟨e', he', heq⟩ | ⟨e', he', heq⟩
      · simp only [dictSet] at he'
        split at he'
        · obtain ⟨b, hb, rfl⟩ := List.mem_map.1 he'
          split at heq
          · exact Or.inr ⟨a, by simp, heq⟩
          · exact Or.inl ⟨b, hb, heq⟩
        · rcases List.mem_append.1 he' with h | h
          · exact Or.inl ⟨e', h, heq⟩
          · simp only [List.mem_cons, List.not_mem_nil, or_false] at h
            subst h
            exact Or.inr ⟨a, by simp, heq⟩
      · exact Or.inr ⟨e', by simp [he'], heq⟩
  intro e he
  simp only [cleanState, sanitizeStateKeys, List.foldl_cons, List.foldl_nil, NamedState.rekey] at he
  obtain ⟨e1, h1, q1⟩ := keys _ _ e he
  obtain ⟨e2, h2, q2⟩ := keys _ _ e1 h1
  rw [q1, q2, encode_eq]
  constructor <;>
  · intro hm
    obtain ⟨c, -, hc⟩ := List.mem_flatMap.1 hm
    unfold encoded at hc
    split at hc
    · revert hc; decide
    · split at hc
      · revert hc; decide
      · simp only [List.mem_cons, List.not_mem_nil, or_false] at hc
        first
        | exact absurd hc.symm ‹¬ c = '/'›
        | exact absurd hc.symm ‹¬ c = '~'›

/-- Of two parameters `a/b` and `adummy_slashb` only one survives saving, and the name it comes back under is that
of the first, with the value of the second. -/
theorem C89_collision {V : Type} (v w : V) (opt : List (OptEntry V)) :
    (uncleanState (cleanState ⟨[(['a', '/', 'b'], v), ('a' :: dummySlash ++ ['b'], w)], opt⟩)).params =
      [(['a', '/', 'b'], w)] := by
  simp only [uncleanState, cleanState, sanitizeStateKeys, List.foldl_cons, List.foldl_nil, NamedState.rekey, rekey]
  have e1 : pyReplace ['/'] dummySlash ['a', '/', 'b'] = 'a' :: dummySlash ++ ['b'] := by decide
  have e2 : pyReplace ['/'] dummySlash ('a' :: dummySlash ++ ['b']) = 'a' :: dummySlash ++ ['b'] := by decide
  have e3 : pyReplace ['~'] dummyTilde ('a' :: dummySlash ++ ['b']) = 'a' :: dummySlash ++ ['b'] := by decide
  have e4 : pyReplace dummySlash ['/'] ('a' :: dummySlash ++ ['b']) = ['a', '/', 'b'] := by decide
  have e5 : pyReplace dummyTilde ['~'] ['a', '/', 'b'] = ['a', '/', 'b'] := by decide
  have d1 : ∀ k : List Char, dictSet (dictSet [] k v) k w = [(k, w)] := fun k => by simp [dictSet]
  have d2 : ∀ k : List Char, dictSet [] k w = [(k, w)] := fun k => by simp [dictSet]
  simp only [List.foldl_cons, List.foldl_nil, e1, e2, d1]
  simp only [List.foldl_cons, List.foldl_nil, e3, d2]
  simp only [List.foldl_cons, List.foldl_nil, e4, d2]
  simp only [List.foldl_cons, List.foldl_nil, e5, d2]

example : PlainDict [(['m', 'l', 'p', '/', '~', '/', 'l', '0'], (1 : ℕ)), (['m', 'l', 'p', '/', '~', '/', 'l', '1'], 2)] := by
  refine ⟨by decide, ?_⟩
  intro e he
  simp only [List.mem_cons, List.not_mem_nil, or_false] at he
  unfold PlainName
  rcases he with rfl | rfl <;> decide

end PD.Props
