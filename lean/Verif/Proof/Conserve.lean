import Verif.Spec.RustTypes
/-
When two crates with different items agree: on everything that can be said with the names that both have.
-/
namespace RustTypes
open RustCode Crevice

/-- What may be mentioned. -/
structure View where
  /-- a path in a module that stands for a type, a struct or a function -/
  path : String → List String → Prop
  /-- a path in a module that stands for a trait -/
  via : String → List String → Prop
  /-- what paths stand for -/
  named : List String → Prop
  /-- traits -/
  trait : List String → Prop
  /-- associated items of traits -/
  item : String → Prop
  /-- `size_of` -/
  sized : Prop

mutual
/-- A type. -/
def COk (v : View) : CTy → Prop
  | .named q cs => v.named q ∧ COks v cs
  | .array t _ => COk v t
/-- Types. -/
def COks (v : View) : List CTy → Prop
  | [] => True
  | c :: cs => COk v c ∧ COks v cs
end

/-- A trait as it is written. -/
def ViaOk (v : View) (m : String) : RustCode.Ty → Prop
  | .path p _ => v.via m p
  | _ => True

/-- The trait in `Tr::f(e)`. -/
def CalledOk (v : View) (m : String) : Expr → Prop
  | .path (.path p _) => v.via m p.dropLast
  | _ => True

mutual
/-- A type as it is written. -/
def TyOk (v : View) (m : String) : RustCode.Ty → Prop
  | .path p args => v.path m p ∧ TysOk v m args
  | .proj t via _ => TyOk v m t ∧ ViaOk v m via
  | .array t e => TyOk v m t ∧ ExprOk v m e
  | .ref _ _ => True
  | .slice _ => True
  | .unit => True
/-- All of them. -/
def TysOk (v : View) (m : String) : List RustCode.Ty → Prop
  | [] => True
  | t :: ts => TyOk v m t ∧ TysOk v m ts
/-- A path in an expression. -/
def PathOk (v : View) (m : String) : RustCode.Ty → Prop
  | .path p _ => v.path m p.dropLast ∧ ∀ x, p.getLast? = some x → v.item x
  | .proj t via ns => TyOk v m t ∧ ViaOk v m via ∧ ∀ a ∈ ns, v.item a
  | _ => True
/-- An expression. -/
def ExprOk (v : View) (m : String) : Expr → Prop
  | .deref e => ExprOk v m e
  | .field e _ => ExprOk v m e
  | .cast e t => ExprOk v m e ∧ TyOk v m t
  | .bin _ a b => ExprOk v m a ∧ ExprOk v m b
  | .method e f args => ExprOk v m e ∧ (f = "into" ∨ v.item f) ∧ ExprsOk v m args
  | .path p => PathOk v m p
  | .call f args => CalleeOk v m f ∧ (args.length = 1 → CalledOk v m f) ∧ ExprsOk v m args
  | .array es => ExprsOk v m es
  | .struct p _ es => TyOk v m p ∧ ExprsOk v m es
  | .structBase p _ es b => TyOk v m p ∧ ExprsOk v m es ∧ ExprOk v m b
  | .block ss e => StmtsOk v m ss ∧ ExprOk v m e
  | .cond c t e => ExprOk v m c ∧ ExprOk v m t ∧ ExprOk v m e
  | _ => True
/-- What is called. -/
def CalleeOk (v : View) (m : String) : Expr → Prop
  | .var x => v.path m [x]
  | .path (.path p args) => v.path m p ∧ (p = ["core", "mem", "size_of"] → v.sized ∧ TysOk v m args)
  | .path p => PathOk v m p
  | _ => True
/-- All of them. -/
def ExprsOk (v : View) (m : String) : List Expr → Prop
  | [] => True
  | e :: es => ExprOk v m e ∧ ExprsOk v m es
/-- A statement. -/
def StmtOk (v : View) (m : String) : Stmt → Prop
  | .bind _ _ t e => TyOk v m t ∧ ExprOk v m e
  | _ => True
/-- All of them. -/
def StmtsOk (v : View) (m : String) : List Stmt → Prop
  | [] => True
  | s :: ss => StmtOk v m s ∧ StmtsOk v m ss
end

/-- Bounds. -/
def BoundsOk (v : View) (m : String) (bs : List (RustCode.Ty × List RustCode.Ty)) : Prop :=
  ∀ b ∈ bs, TyOk v m b.1 ∧ ∀ t ∈ b.2, ViaOk v m t

/-- A scope. -/
structure ScopeOk (v : View) (s : Scope) : Prop where
  vars : ∀ x ∈ s.vars, COk v x.2
  assoc : ∀ a ∈ s.assoc, TyOk v s.module a.2
  bounds : BoundsOk v s.module s.bounds

/-- An associated item. -/
def AssocOk (v : View) (m : String) : Assoc → Prop
  | .fn f => TyOk v m f.ret ∧ ∀ b, f.body = some b → ExprOk v m b
  | .const _ _ e => ∀ b, e = some b → ExprOk v m b
  | .type _ t => ∀ u, t = some u → TyOk v m u

/-- An implementation. -/
structure ImplOk (v : View) (i : ImplDef) : Prop where
  self : TyOk v i.module i.self
  args : TysOk v i.module i.traitArgs
  bounds : BoundsOk v i.module i.bounds
  items : ∀ a ∈ i.items, AssocOk v i.module a

/-- An implementation that applies. -/
structure FoundOk (v : View) (f : Found) : Prop where
  scope : ScopeOk v f.scope
  items : ∀ a ∈ f.items, AssocOk v f.scope.module a

/-- The items of `ix` are those of `ix'` as far as they can be mentioned. -/
structure Conserves (v : View) (ix ix' : Index) (o o' : Outside) : Prop where
  path : ∀ {m p}, v.path m p → resolveName ix.names m p = resolveName ix'.names m p ∧
    ∀ q, resolveName ix'.names m p = some q → v.named q
  via : ∀ {m p}, v.via m p → resolveName ix.names m p = resolveName ix'.names m p ∧
    ∀ q, resolveName ix'.names m p = some q → v.trait q
  item : ∀ {a}, v.item a → (ix.owners.filter fun o => o.1 == a) = (ix'.owners.filter fun o => o.1 == a) ∧
    ∀ o ∈ ix'.owners.filter (fun o => o.1 == a), v.trait o.2
  structs : ∀ {p}, v.named p → ix.structs.lookup p = ix'.structs.lookup p ∧
    ∀ d, ix'.structs.lookup p = some d → ∀ f ∈ d.fields, TyOk v d.module f.2
  fns : ∀ {p}, v.named p → ix.fns.lookup p = ix'.fns.lookup p ∧
    ∀ f, ix'.fns.lookup p = some f → ∀ b, f.body = some b → ExprOk v (p.headD "") b
  outside : ∀ {p args}, v.named p → COks v args → o.fields p args = o'.fields p args ∧
    ∀ fs, o'.fields p args = some fs → ∀ f ∈ fs, COk v f.2
  traits : ∀ x p args, o.implements x p args = o'.implements x p args
  into : ∀ c d x, o.into c d x = o'.into c d x
  constFn : ∀ p vs, o.constFn p vs = o'.constFn p vs
  impls : ∀ {t}, v.trait t → ∃ keep : ImplDef → Bool, ix.impls t = (ix'.impls t).filter keep ∧
    ∀ i ∈ ix'.impls t, (keep i = true → ImplOk v i ∨ ∀ c, COk v c →
        matchTy ix.names i.module i.params i.self c = none ∧ matchTy ix'.names i.module i.params i.self c = none) ∧
      (keep i = false → ∀ c, COk v c → matchTy ix'.names i.module i.params i.self c = none)
  sized : v.sized → ∀ r, o.sizeOf r = o'.sizeOf r
  zeroable : v.trait ["Zeroable"]
  convert : v.trait ["From"]
  bool : v.named ["bool"]

/-- Two semantics agree. -/
structure Same (v : View) (g g' : Sem) : Prop where
  norm : ∀ {s t}, ScopeOk v s → TyOk v s.module t → g.norm s t = g'.norm s t ∧ ∀ c, g'.norm s t = some c → COk v c
  candidates : ∀ {tr args c}, v.trait tr → COks v args → COk v c → g.candidates tr args c = g'.candidates tr args c ∧
    ∀ fs, g'.candidates tr args c = some fs → ∀ f ∈ fs, FoundOk v f
  implements : ∀ {tr c}, v.trait tr → COk v c → g.implements tr c = g'.implements tr c
  layout : ∀ {c}, COk v c → g.layout c = g'.layout c
  eval : ∀ {s l want e}, ScopeOk v s → (∀ x ∈ l, COk v x.2.1) → (∀ c, want = some c → COk v c) → ExprOk v s.module e →
    g.eval s l want e = g'.eval s l want e ∧ ∀ r, g'.eval s l want e = some r → COk v r.1
  const : ∀ {s l e}, ScopeOk v s → ExprOk v s.module e → g.const s l e = g'.const s l e

theorem bind_same {α β : Type} {x y : Option α} {f g : α → Option β} (h : x = y) (hf : ∀ a, y = some a → f a = g a) :
    x.bind f = y.bind g := by
  subst h
  cases x with
  | none => rfl
  | some a => exact hf a rfl

theorem map_same {α β : Type} {x y : Option α} {f g : α → β} (h : x = y) (hf : ∀ a, y = some a → f a = g a) :
    x.map f = y.map g := by
  subst h
  cases x with
  | none => rfl
  | some a => exact congrArg some (hf a rfl)

theorem lookup_mem {α β : Type} [BEq α] [LawfulBEq α] {l : List (α × β)} {a : α} {b : β} (h : l.lookup a = some b) :
    (a, b) ∈ l := by
  induction l with
  | nil => cases h
  | cons x l ih =>
    obtain ⟨k, y⟩ := x
    rw [List.lookup_cons] at h
    split at h
    · next hk =>
      injection h with h
      rw [eq_of_beq hk, h]
      exact List.mem_cons_self
    · exact List.mem_cons_of_mem _ (ih h)

theorem coks_iff {v : View} {cs : List CTy} : COks v cs ↔ ∀ c ∈ cs, COk v c := by
  induction cs with
  | nil => simp [COks]
  | cons c cs ih => simp [COks, ih]

theorem tysOk_iff {v : View} {m : String} {ts : List RustCode.Ty} : TysOk v m ts ↔ ∀ t ∈ ts, TyOk v m t := by
  induction ts with
  | nil => simp [TysOk]
  | cons c cs ih => simp [TysOk, ih]

theorem exprsOk_iff {v : View} {m : String} {es : List Expr} : ExprsOk v m es ↔ ∀ e ∈ es, ExprOk v m e := by
  induction es with
  | nil => simp [ExprsOk]
  | cons c cs ih => simp [ExprsOk, ih]

theorem mapM_same {α β : Type} {f g : α → Option β} {xs : List α} (h : ∀ x ∈ xs, f x = g x) : xs.mapM f = xs.mapM g := by
  induction xs with
  | nil => rfl
  | cons x xs ih =>
    rw [List.mapM_cons, List.mapM_cons, h x List.mem_cons_self, ih fun y hy => h y (List.mem_cons_of_mem _ hy)]

theorem mapM_all {α β : Type} {f : α → Option β} {P : β → Prop} {xs : List α} {ys : List β} (h : xs.mapM f = some ys)
    (hf : ∀ x ∈ xs, ∀ y, f x = some y → P y) : ∀ y ∈ ys, P y := by
  induction xs generalizing ys with
  | nil =>
    cases h
    intro y hy
    cases hy
  | cons x xs ih =>
    rw [List.mapM_cons] at h
    cases hx : f x with
    | none => rw [hx] at h; cases h
    | some a =>
      rw [hx] at h
      cases hs : xs.mapM f with
      | none => rw [hs] at h; cases h
      | some as =>
        rw [hs] at h
        injection h with h
        subst h
        intro y hy
        rcases List.mem_cons.1 hy with rfl | hy
        · exact hf x List.mem_cons_self y hx
        · exact ih hs (fun z hz => hf z (List.mem_cons_of_mem _ hz)) y hy

theorem filterMap_same {α β : Type} {f g : α → Option β} {xs : List α} (h : ∀ x ∈ xs, f x = g x) :
    xs.filterMap f = xs.filterMap g := by
  induction xs with
  | nil => rfl
  | cons x xs ih =>
    rw [List.filterMap_cons, List.filterMap_cons, h x List.mem_cons_self, ih fun y hy => h y (List.mem_cons_of_mem _ hy)]

theorem allM_same {α : Type} {f g : α → Option Bool} {xs : List α} (h : ∀ x ∈ xs, f x = g x) : allM f xs = allM g xs := by
  induction xs with
  | nil => rfl
  | cons x xs ih =>
    unfold allM
    rw [h x List.mem_cons_self]
    refine bind_same rfl fun b _ => ?_
    rw [ih fun y hy => h y (List.mem_cons_of_mem _ hy)]

section
variable {v : View} {ix ix' : Index} {o o' : Outside}

/-- Match a path that is not a variable. -/
def matchNamed (names : List (String × List String)) (m : String) (vars : List String) (p : List String)
    (args : List RustCode.Ty) : CTy → Option (List (String × CTy))
  | .named q cs => if resolveName names m p = some q then matchTys names m vars args cs else none
  | .array _ _ => none

theorem matchTy_path (names : List (String × List String)) (m : String) (vars : List String) (p : List String)
    (args : List RustCode.Ty) (c : CTy) : matchTy names m vars (.path p args) c =
      match p with
      | [x] => if vars.contains x then some [(x, c)] else matchNamed names m vars [x] args c
      | p => matchNamed names m vars p args c := by
  rcases p with _ | ⟨x, _ | ⟨y, p⟩⟩
  · cases c <;> (unfold matchTy; rfl)
  · cases c <;> (unfold matchTy; rfl)
  · cases c <;> (unfold matchTy; rfl)

mutual
theorem matchTy_same (h : Conserves v ix ix' o o') (m : String) (vars : List String) :
    ∀ (t : RustCode.Ty) (c : CTy), TyOk v m t → COk v c →
      matchTy ix.names m vars t c = matchTy ix'.names m vars t c ∧
        ∀ bs, matchTy ix'.names m vars t c = some bs → ∀ b ∈ bs, COk v b.2
  | .path p args, c, ht, hc => by
    unfold TyOk at ht
    obtain ⟨h1, h2⟩ := h.path ht.1
    have key : matchNamed ix.names m vars p args c = matchNamed ix'.names m vars p args c ∧
        ∀ bs, matchNamed ix'.names m vars p args c = some bs → ∀ b ∈ bs, COk v b.2 := by
      cases c with
      | array t n => exact ⟨rfl, fun bs hb => by cases hb⟩
      | named q cs =>
        unfold COk at hc
        obtain ⟨h3, h4⟩ := matchTys_same h m vars args cs ht.2 hc.2
        unfold matchNamed
        dsimp only
        rw [h1, h3]
        refine ⟨rfl, fun bs hb => ?_⟩
        split at hb
        · exact h4 bs hb
        · cases hb
    rw [matchTy_path, matchTy_path]
    split
    · split
      · refine ⟨rfl, fun bs hb b hm => ?_⟩
        injection hb with hb
        subst hb
        rcases List.mem_singleton.1 hm with rfl
        exact hc
      · exact key
    · exact key
  | .proj _ _ _, c, _, _ => ⟨by simp [matchTy], by simp [matchTy]⟩
  | .ref _ _, c, _, _ => ⟨by simp [matchTy], by simp [matchTy]⟩
  | .slice _, c, _, _ => ⟨by simp [matchTy], by simp [matchTy]⟩
  | .array _ _, c, _, _ => ⟨by simp [matchTy], by simp [matchTy]⟩
  | .unit, c, _, _ => ⟨by simp [matchTy], by simp [matchTy]⟩
theorem matchTys_same (h : Conserves v ix ix' o o') (m : String) (vars : List String) :
    ∀ (ts : List RustCode.Ty) (cs : List CTy), TysOk v m ts → COks v cs →
      matchTys ix.names m vars ts cs = matchTys ix'.names m vars ts cs ∧
        ∀ bs, matchTys ix'.names m vars ts cs = some bs → ∀ b ∈ bs, COk v b.2
  | [], [], _, _ => ⟨by simp [matchTys], by simp [matchTys]⟩
  | [], _ :: _, _, _ => ⟨by simp [matchTys], by simp [matchTys]⟩
  | _ :: _, [], _, _ => ⟨by simp [matchTys], by simp [matchTys]⟩
  | t :: ts, c :: cs, ht, hc => by
    unfold TysOk at ht
    unfold COks at hc
    obtain ⟨h1, h2⟩ := matchTy_same h m vars t c ht.1 hc.1
    obtain ⟨h3, h4⟩ := matchTys_same h m vars ts cs ht.2 hc.2
    unfold matchTys
    rw [h1, h3]
    refine ⟨rfl, fun bs hb => ?_⟩
    cases ha : matchTy ix'.names m vars t c with
    | none => rw [ha] at hb; cases hb
    | some a =>
      cases hd : matchTys ix'.names m vars ts cs with
      | none => rw [ha, hd] at hb; cases hb
      | some d =>
        rw [ha, hd] at hb
        injection hb with hb
        subst hb
        intro b hm
        rcases List.mem_append.1 hm with hm | hm
        · exact h2 a ha b hm
        · exact h4 d hd b hm
end

theorem boundTraits_same (h : Conserves v ix ix' o o') {s : Scope} (hs : ScopeOk v s) (p : List String) :
    boundTraits ix s p = boundTraits ix' s p := by
  unfold boundTraits
  have key : ∀ bs : List (RustCode.Ty × List RustCode.Ty), BoundsOk v s.module bs →
      (bs.flatMap fun b => match b.1 with
        | .path q _ => if q = p then b.2.filterMap fun t => match t with
          | .path r _ => resolveName ix.names s.module r
          | _ => none else []
        | _ => []) = bs.flatMap fun b => match b.1 with
        | .path q _ => if q = p then b.2.filterMap fun t => match t with
          | .path r _ => resolveName ix'.names s.module r
          | _ => none else []
        | _ => [] := by
    intro bs hb
    induction bs with
    | nil => rfl
    | cons b bs ih =>
      rw [List.flatMap_cons, List.flatMap_cons, ih fun x hx => hb x (List.mem_cons_of_mem _ hx)]
      congr 1
      have h2 := (hb b List.mem_cons_self).2
      split
      · split
        · refine filterMap_same fun t ht => ?_
          have := h2 t ht
          cases t <;> first | rfl | exact (h.via this).1
        · rfl
      · rfl
  exact key _ hs.bounds

theorem ownerOf_same (h : Conserves v ix ix' o o') {s : Scope} (hs : ScopeOk v s) (p : List String) {a : String}
    (ha : v.item a) : ownerOf ix s p a = ownerOf ix' s p a ∧ ∀ t, ownerOf ix' s p a = some t → v.trait t := by
  obtain ⟨h1, h2⟩ := h.item ha
  unfold ownerOf
  rw [h1, boundTraits_same h hs]
  refine ⟨rfl, fun t ht => ?_⟩
  generalize hf : (ix'.owners.filter fun o => o.1 == a) = os at *
  split at ht
  · next o =>
    injection ht with ht
    subst ht
    exact h2 _ List.mem_cons_self
  · split at ht
    · next o ho =>
      injection ht with ht
      subst ht
      have : o ∈ os := (List.mem_filter.1 (ho ▸ List.mem_singleton.2 rfl)).1
      exact h2 _ this
    · cases ht

variable {g g' : Sem}

theorem find_same (hg : Same v g g') {tr : List String} {args : List CTy} {c : CTy} (ht : v.trait tr) (ha : COks v args)
    (hc : COk v c) : g.find tr args c = g'.find tr args c ∧ ∀ f, g'.find tr args c = some f → FoundOk v f := by
  obtain ⟨h1, h2⟩ := hg.candidates ht ha hc
  unfold Sem.find
  rw [h1]
  refine ⟨rfl, fun f hf => ?_⟩
  cases hcs : g'.candidates tr args c with
  | none => rw [hcs] at hf; cases hf
  | some fs =>
    rw [hcs] at hf
    dsimp only [Option.bind] at hf
    split at hf
    · injection hf with hf
      subst hf
      exact h2 _ hcs _ (List.mem_singleton.2 rfl)
    · cases hf

theorem project_same (hg : Same v g g') {tr : List String} {c : CTy} (ht : v.trait tr) (hc : COk v c) (a : String) :
    g.project tr c a = g'.project tr c a ∧ ∀ d, g'.project tr c a = some d → COk v d := by
  obtain ⟨h1, h2⟩ := find_same hg ht (args := []) (by trivial) hc
  unfold Sem.project
  rw [h1]
  cases hf : g'.find tr [] c with
  | none => exact ⟨rfl, fun d hd => by cases hd⟩
  | some f =>
    have hok := h2 f hf
    show ((f.scope.assoc.lookup a).bind _) = ((f.scope.assoc.lookup a).bind _) ∧ ∀ d, ((f.scope.assoc.lookup a).bind _) = some d → _
    cases hl : f.scope.assoc.lookup a with
    | none => exact ⟨rfl, fun d hd => by cases hd⟩
    | some t => exact hg.norm hok.scope (hok.scope.assoc _ (lookup_mem hl))

/-- A path that does not start with `Self`. -/
def normNamed (ix : Index) (g : Sem) (s : Scope) (p : List String) (args : List RustCode.Ty) : Option CTy :=
  match (match p with | [x] => s.vars.lookup x | _ => none) with
  | some c => some c
  | none => (resolveName ix.names s.module p).bind fun q => (args.mapM (g.norm s)).map (.named q)

theorem normRule_path (ix : Index) (g : Sem) (s : Scope) (p : List String) (args : List RustCode.Ty) :
    normRule ix g s (.path p args) =
      if p.head? = some "Self" then
        match p with
        | [_, a] => (s.assoc.lookup a).bind (g.norm s)
        | [_] => s.vars.lookup "Self"
        | _ => none
      else normNamed ix g s p args := rfl

theorem normRule_proj (ix : Index) (g : Sem) (s : Scope) (t via : RustCode.Ty) (ns : List String) :
    normRule ix g s (.proj t via ns) =
      match via, ns with
      | .path p _, [a] =>
        (g.norm s t).bind fun c => (resolveName ix.names s.module p).bind fun tr => g.project tr c a
      | _, _ => none := rfl

theorem constLen_same (hg : Same v g g') {s : Scope} (hs : ScopeOk v s) {e : Expr} (he : ExprOk v s.module e) :
    constLen g s e = constLen g' s e := by
  have hc := hg.const (l := []) hs he
  cases e <;> first | rfl | exact congrArg (fun x => Option.bind x Const.toNat?) hc

theorem norm_same (h : Conserves v ix ix' o o') (hg : Same v g g') {s : Scope} (hs : ScopeOk v s) :
    ∀ {t : RustCode.Ty}, TyOk v s.module t → normRule ix g s t = normRule ix' g' s t ∧
      ∀ c, normRule ix' g' s t = some c → COk v c
  | .path p args, ht => by
    unfold TyOk at ht
    obtain ⟨h1, h2⟩ := h.path ht.1
    rw [normRule_path, normRule_path]
    split
    · split
      · next a _ =>
        cases hl : s.assoc.lookup a with
        | none => exact ⟨rfl, fun d hd => by cases hd⟩
        | some t => exact hg.norm hs (hs.assoc _ (lookup_mem hl))
      · exact ⟨rfl, fun c hc => hs.vars _ (lookup_mem hc)⟩
      · exact ⟨rfl, fun c hc => by cases hc⟩
    · unfold normNamed
      generalize hx : (match p with | [x] => s.vars.lookup x | _ => none) = x
      cases x with
      | some c =>
        refine ⟨rfl, fun d hd => ?_⟩
        injection hd with hd
        subst hd
        split at hx
        · exact hs.vars _ (lookup_mem hx)
        · cases hx
      | none =>
        have h3 : args.mapM (g.norm s) = args.mapM (g'.norm s) :=
          mapM_same fun t hm => (hg.norm hs (tysOk_iff.1 ht.2 t hm)).1
        dsimp only
        rw [h1, h3]
        refine ⟨rfl, fun c hc => ?_⟩
        cases hq : resolveName ix'.names s.module p with
        | none => rw [hq] at hc; cases hc
        | some q =>
          rw [hq] at hc
          cases hm : args.mapM (g'.norm s) with
          | none => rw [hm] at hc; cases hc
          | some cs =>
            rw [hm] at hc
            injection hc with hc
            subst hc
            unfold COk
            exact ⟨h2 q hq, coks_iff.2 (mapM_all hm fun t ht' => (hg.norm hs (tysOk_iff.1 ht.2 t ht')).2)⟩
  | .proj t via ns, ht => by
    unfold TyOk at ht
    rw [normRule_proj, normRule_proj]
    split
    · next p args a =>
      obtain ⟨h1, h2⟩ := hg.norm hs ht.1
      obtain ⟨h3, h4⟩ := h.via (show v.via s.module p from ht.2)
      rw [h1, h3]
      cases hc : g'.norm s t with
      | none => exact ⟨rfl, fun d hd => by cases hd⟩
      | some c =>
        cases hq : resolveName ix'.names s.module p with
        | none => exact ⟨rfl, fun d hd => by cases hd⟩
        | some q => exact project_same hg (h4 q hq) (h2 c hc) a
    · exact ⟨rfl, fun d hd => by cases hd⟩
  | .array t n, ht => by
    unfold TyOk at ht
    obtain ⟨h1, h2⟩ := hg.norm hs ht.1
    show ((g.norm s t).bind _ = (g'.norm s t).bind _) ∧ ∀ c, (g'.norm s t).bind _ = some c → _
    rw [h1, constLen_same hg hs ht.2]
    refine ⟨rfl, fun c hc => ?_⟩
    cases hn : g'.norm s t with
    | none => rw [hn] at hc; cases hc
    | some d =>
      rw [hn] at hc
      cases hk : constLen g' s n with
      | none => rw [hk] at hc; cases hc
      | some k =>
        rw [hk] at hc
        injection hc with hc
        subst hc
        unfold COk
        exact h2 d hn
  | .ref _ _, _ => ⟨rfl, fun d hd => by cases hd⟩
  | .slice _, _ => ⟨rfl, fun d hd => by cases hd⟩
  | .unit, _ => ⟨rfl, fun d hd => by cases hd⟩

theorem boundsHold_same (h : Conserves v ix ix' o o') (hg : Same v g g') {s : Scope} (hs : ScopeOk v s)
    {bs : List (RustCode.Ty × List RustCode.Ty)} (hb : BoundsOk v s.module bs) :
    boundsHold ix g s bs = boundsHold ix' g' s bs := by
  unfold boundsHold
  refine allM_same fun b hm => ?_
  obtain ⟨h1, h2⟩ := hg.norm hs (hb b hm).1
  refine bind_same h1 fun c hc => allM_same fun tr ht => ?_
  have h3 := (hb b hm).2 tr ht
  cases tr <;> try rfl
  obtain ⟨h4, h5⟩ := h.via h3
  exact bind_same h4 fun t ht => hg.implements (h5 t ht) (h2 c hc)

theorem applies_same (h : Conserves v ix ix' o o') (hg : Same v g g') {args : List CTy} {c : CTy} (ha : COks v args)
    (hc : COk v c) {i : ImplDef} (hi : ImplOk v i) : applies ix g args c i = applies ix' g' args c i ∧
      ∀ f, applies ix' g' args c i = some (some f) → FoundOk v f := by
  obtain ⟨h1, h2⟩ := matchTy_same h i.module i.params i.self c hi.self hc
  obtain ⟨h3, h4⟩ := matchTys_same h i.module i.params i.traitArgs args hi.args ha
  unfold applies
  rw [h1, h3]
  cases hx : matchTy ix'.names i.module i.params i.self c with
  | none => exact ⟨rfl, fun f hf => by cases hf⟩
  | some a =>
    cases hy : matchTys ix'.names i.module i.params i.traitArgs args with
    | none => exact ⟨rfl, fun f hf => by cases hf⟩
    | some b =>
      dsimp only
      have hs : ScopeOk v { module := i.module, vars := ("Self", c) :: (a ++ b),
                            assoc := assocTypes i.items, bounds := i.bounds } := by
        refine ⟨fun x hx' => ?_, fun x hx' => ?_, hi.bounds⟩
        · rcases List.mem_cons.1 hx' with rfl | hx'
          · exact hc
          · rcases List.mem_append.1 hx' with hx' | hx'
            · exact h2 a hx x hx'
            · exact h4 b hy x hx'
        · obtain ⟨it, h5, h6⟩ := List.mem_filterMap.1 hx'
          have := hi.items it h5
          split at h6
          · injection h6 with h6
            subst h6
            exact this _ rfl
          · cases h6
      rw [boundsHold_same h hg hs hi.bounds]
      refine ⟨rfl, fun f hf => ?_⟩
      generalize boundsHold ix' g' _ i.bounds = x at hf
      cases x with
      | none => cases hf
      | some ok =>
        injection hf with hf
        dsimp only at hf
        split at hf
        · injection hf with hf
          subst hf
          exact ⟨hs, hi.items⟩
        · cases hf

theorem applies_none {ix : Index} {g : Sem} {args : List CTy} {c : CTy} {i : ImplDef}
    (h : matchTy ix.names i.module i.params i.self c = none) : applies ix g args c i = some none := by
  unfold applies
  rw [h]

theorem filterMapM_filter {α β : Type} {p q : α → Option (Option β)} {keep : α → Bool} {xs : List α}
    (h1 : ∀ x ∈ xs, keep x = true → p x = q x) (h2 : ∀ x ∈ xs, keep x = false → q x = some none) :
    filterMapM p (xs.filter keep) = filterMapM q xs := by
  induction xs with
  | nil => rfl
  | cons x xs ih =>
    have ih := ih (fun y hy => h1 y (List.mem_cons_of_mem _ hy)) fun y hy => h2 y (List.mem_cons_of_mem _ hy)
    cases hk : keep x with
    | true =>
      rw [List.filter_cons_of_pos hk]
      unfold filterMapM
      rw [h1 x List.mem_cons_self hk, ih]
    | false =>
      rw [List.filter_cons_of_neg (by simp [hk]), ih, filterMapM, h2 x List.mem_cons_self hk]
      cases filterMapM q xs <;> rfl

theorem filterMapM_all {α β : Type} {q : α → Option (Option β)} {P : β → Prop} {xs : List α} {ys : List β}
    (h : filterMapM q xs = some ys) (hq : ∀ x ∈ xs, ∀ y, q x = some (some y) → P y) : ∀ y ∈ ys, P y := by
  induction xs generalizing ys with
  | nil =>
    cases h
    intro y hy
    cases hy
  | cons x xs ih =>
    unfold filterMapM at h
    cases hx : q x with
    | none => rw [hx] at h; cases h
    | some r =>
      rw [hx] at h
      cases hs : filterMapM q xs with
      | none => rw [hs] at h; cases h
      | some as =>
        rw [hs] at h
        injection h with h
        subst h
        intro y hy
        rcases List.mem_append.1 hy with hy | hy
        · cases r with
          | none => cases hy
          | some z =>
            rcases List.mem_singleton.1 hy with rfl
            exact hq x List.mem_cons_self _ hx
        · exact ih hs (fun z hz => hq z (List.mem_cons_of_mem _ hz)) y hy

theorem candidates_same (h : Conserves v ix ix' o o') (hg : Same v g g') {tr : List String} {args : List CTy} {c : CTy}
    (ht : v.trait tr) (ha : COks v args) (hc : COk v c) :
    candidatesRule ix g tr args c = candidatesRule ix' g' tr args c ∧
      ∀ fs, candidatesRule ix' g' tr args c = some fs → ∀ f ∈ fs, FoundOk v f := by
  obtain ⟨keep, h1, h2⟩ := h.impls ht
  unfold candidatesRule
  rw [h1]
  have key : ∀ i ∈ ix'.impls tr, keep i = true → applies ix g args c i = applies ix' g' args c i ∧
      ∀ f, applies ix' g' args c i = some (some f) → FoundOk v f := by
    intro i hi hk
    rcases (h2 i hi).1 hk with h3 | h3
    · exact applies_same h hg ha hc h3
    · rw [applies_none (h3 c hc).1, applies_none (h3 c hc).2]
      exact ⟨rfl, fun f hf => by cases hf⟩
  refine ⟨filterMapM_filter (fun i hi hk => (key i hi hk).1)
    fun i hi hk => applies_none ((h2 i hi).2 hk c hc), fun fs hf => filterMapM_all hf fun i hi f hf => ?_⟩
  cases hk : keep i with
  | true => exact (key i hi hk).2 f hf
  | false =>
    rw [applies_none ((h2 i hi).2 hk c hc)] at hf
    cases hf

theorem zip_vars {v : View} {xs : List String} {cs : List CTy} (h : COks v cs) : ∀ x ∈ xs.zip cs, COk v x.2 := by
  intro x hx
  exact coks_iff.1 h _ (List.of_mem_zip hx).2

theorem fieldsOf_same (h : Conserves v ix ix' o o') (hg : Same v g g') : ∀ {c : CTy}, COk v c →
    fieldsOf ix o g c = fieldsOf ix' o' g' c ∧ ∀ fs, fieldsOf ix' o' g' c = some fs → ∀ f ∈ fs, COk v f.2
  | .array _ _, _ => ⟨rfl, fun fs hf => by cases hf⟩
  | .named p args, hc => by
    unfold COk at hc
    obtain ⟨h1, h2⟩ := h.structs hc.1
    unfold fieldsOf
    dsimp only
    rw [h1]
    cases hl : ix'.structs.lookup p with
    | none => exact h.outside hc.1 hc.2
    | some d =>
      have hs : ScopeOk v { module := d.module, vars := d.params.zip args, assoc := [], bounds := [] } :=
        ⟨zip_vars hc.2, fun a ha => (by cases ha), fun b hb => (by cases hb)⟩
      dsimp only
      refine ⟨mapM_same fun f hf => map_same (hg.norm hs (h2 d hl f hf)).1 fun _ _ => rfl, fun fs hfs =>
        mapM_all hfs fun f hf y hy => ?_⟩
      cases hn : g'.norm { module := d.module, vars := d.params.zip args, assoc := [], bounds := [] } f.2 with
      | none => rw [hn] at hy; cases hy
      | some c' =>
        rw [hn] at hy
        injection hy with hy
        subst hy
        exact (hg.norm hs (h2 d hl f hf)).2 _ hn

theorem implements_same (h : Conserves v ix ix' o o') (hg : Same v g g') {tr : List String} {c : CTy} (ht : v.trait tr)
    (hc : COk v c) : implementsRule ix o g tr c = implementsRule ix' o' g' tr c := by
  unfold implementsRule
  refine bind_same (hg.candidates ht (by trivial) hc).1 fun fs _ => ?_
  split
  · rfl
  · split
    · next x =>
      cases c with
      | array t n =>
        unfold COk at hc
        exact hg.implements ht hc
      | named p args =>
        obtain ⟨h1, h2⟩ := fieldsOf_same h hg hc
        have h3 := h.structs (show v.named p by unfold COk at hc; exact hc.1)
        dsimp only
        rw [h3.1]
        split
        · split
          · exact bind_same h1 fun fs hfs => allM_same fun f hf => hg.implements ht (h2 fs hfs f hf)
          · rfl
        · exact congrArg some (h.traits _ _ _)
    · rfl

theorem layout_same (h : Conserves v ix ix' o o') (hg : Same v g g') {c : CTy} (hc : COk v c) :
    layoutRule ix o g c = layoutRule ix' o' g' c := by
  cases c with
  | array t n =>
    unfold COk at hc
    exact map_same (hg.layout hc) fun _ _ => rfl
  | named p args =>
    obtain ⟨h1, h2⟩ := fieldsOf_same h hg hc
    have h3 := h.structs (show v.named p by unfold COk at hc; exact hc.1)
    unfold layoutRule
    dsimp only
    rw [h3.1]
    split
    · exact bind_same h1 fun fs hfs => bind_same (mapM_same fun f hf => map_same (hg.layout (h2 fs hfs f hf)) fun _ _ => rfl)
        fun _ _ => rfl
    · rfl

theorem locals_ok {l : Locals} (hl : ∀ x ∈ l, COk v x.2.1) {x : String} {r : CTy × RVal} (h : l.lookup x = some r) :
    COk v r.1 := hl _ (lookup_mem h)

theorem assocFn_mem {items : List Assoc} {x : String} {f : Fn} (h : assocFn items x = some f) : Assoc.fn f ∈ items := by
  unfold assocFn at h
  obtain ⟨a, h1, h2⟩ := List.exists_of_findSome?_eq_some h
  split at h2
  · split at h2
    · injection h2 with h2
      subst h2
      exact h1
    · cases h2
  · cases h2

theorem assocConst_ok {m : String} {items : List Assoc} (hi : ∀ a ∈ items, AssocOk v m a) {x : String} {e : Expr}
    (h : assocConst items x = some e) : ExprOk v m e := by
  unfold assocConst at h
  obtain ⟨a, h1, h2⟩ := List.exists_of_findSome?_eq_some h
  have := hi a h1
  split at h2
  · split at h2
    · exact this e h2
    · cases h2
  · cases h2

theorem call_same (hg : Same v g g') {f : Found} (hf : FoundOk v f) (name : String) {self : Option (CTy × RVal)}
    (hself : ∀ r, self = some r → COk v r.1) {args : List (CTy × RVal)} (ha : ∀ r ∈ args, COk v r.1) :
    g.call f name self args = g'.call f name self args ∧ ∀ r, g'.call f name self args = some r → COk v r.1 := by
  unfold Sem.call
  cases hfn : assocFn f.items name with
  | none => exact ⟨rfl, fun r hr => by cases hr⟩
  | some fn =>
    have hok := hf.items _ (assocFn_mem hfn)
    cases hb : fn.body with
    | none =>
      refine ⟨?_, fun r hr => ?_⟩
      · simp [hb]
      · simp [hb] at hr
    | some body =>
      obtain ⟨h1, h2⟩ := hg.norm hf.scope hok.1
      have hl : ∀ x ∈ (self.map fun v => ("self", v)).toList ++ (fn.params.map Prod.fst).zip args, COk v x.2.1 := by
        intro x hx
        rcases List.mem_append.1 hx with hx | hx
        · cases self with
          | none => cases hx
          | some r =>
            rcases List.mem_singleton.1 hx with rfl
            exact hself r rfl
        · exact ha _ (List.of_mem_zip hx).2
      simp only [Option.bind_some, hb]
      split
      · refine ⟨bind_same h1 fun ret hret => ?_, fun r hr => ?_⟩
        · exact (hg.eval hf.scope hl (fun c hc => by injection hc with hc; subst hc; exact h2 _ hret) (hok.2 body hb)).1
        · cases hret : g'.norm f.scope fn.ret with
          | none => rw [hret] at hr; cases hr
          | some ret =>
            rw [hret] at hr
            exact (hg.eval hf.scope hl (fun c hc => by injection hc with hc; subst hc; exact h2 _ hret) (hok.2 body hb)).2 r hr
      · exact ⟨rfl, fun r hr => by cases hr⟩

theorem convert_same (h : Conserves v ix ix' o o') (hg : Same v g g') {c d : CTy} (hc : COk v c) (hd : COk v d) (x : RVal) :
    g.convert o c d x = g'.convert o' c d x := by
  have ha : COks v [c] := by unfold COks COks; exact ⟨hc, trivial⟩
  obtain ⟨h1, h2⟩ := hg.candidates h.convert ha hd
  unfold Sem.convert
  refine bind_same h1 fun fs hfs => ?_
  split
  · exact h.into _ _ _
  · next f => exact map_same (call_same hg (h2 _ hfs f (List.mem_singleton.2 rfl)) _ (fun r hr => by cases hr)
      (fun r hr => by rcases List.mem_singleton.1 hr with rfl; exact hc)).1 fun _ _ => rfl
  · rfl

theorem fields_want {fs : List (String × CTy)} (hf : ∀ f ∈ fs, COk v f.2) (x : String) :
    ∀ c, fs.lookup x = some c → COk v c := fun _ hc => hf _ (lookup_mem hc)

theorem evalFields_same (hg : Same v g g') {s : Scope} (hs : ScopeOk v s) {l : Locals} (hl : ∀ x ∈ l, COk v x.2.1)
    {fs : List (String × CTy)} (hf : ∀ f ∈ fs, COk v f.2) (names : List String) {es : List Expr}
    (he : ExprsOk v s.module es) : evalFields g s l fs names es = evalFields g' s l fs names es := by
  unfold evalFields
  refine mapM_same fun p hp => map_same (hg.eval hs hl (fields_want hf _) ?_).1 fun _ _ => rfl
  exact exprsOk_iff.1 he _ (List.of_mem_zip hp).2

theorem evalStmts_same (hg : Same v g g') {s : Scope} (hs : ScopeOk v s) : ∀ {ss : List Stmt} {l : Locals},
    (∀ x ∈ l, COk v x.2.1) → StmtsOk v s.module ss → evalStmts g s l ss = evalStmts g' s l ss ∧
      ∀ l', evalStmts g' s l ss = some l' → ∀ x ∈ l', COk v x.2.1
  | [], l, hl, _ => ⟨rfl, fun l' hl' => by cases hl'; exact hl⟩
  | .bind true x t e :: r, l, hl, hss => ⟨rfl, fun l' hl' => by cases hl'⟩
  | .bindTuple _ _ :: r, l, hl, hss => ⟨rfl, fun l' hl' => by cases hl'⟩
  | .expr _ :: r, l, hl, hss => ⟨rfl, fun l' hl' => by cases hl'⟩
  | .bind false x t e :: r, l, hl, hss => by
    unfold StmtsOk StmtOk at hss
    obtain ⟨h1, h2⟩ := hg.norm hs hss.1.1
    unfold evalStmts
    rw [h1]
    cases hc : g'.norm s t with
    | none => exact ⟨rfl, fun l' hl' => by cases hl'⟩
    | some c =>
      obtain ⟨h3, h4⟩ := hg.eval hs hl (want := some c) (fun d hd => by injection hd with hd; subst hd; exact h2 _ hc) hss.1.2
      simp only [Option.bind_some]
      rw [h3]
      cases hv : g'.eval s l (some c) e with
      | none => exact ⟨rfl, fun l' hl' => by cases hl'⟩
      | some w =>
        refine evalStmts_same hg hs (l := (x, w) :: l) (fun y hy => ?_) hss.2
        rcases List.mem_cons.1 hy with rfl | hy
        · exact h4 w hv
        · exact hl y hy

/-- Equal, and of a type that can be mentioned. -/
def Agree (v : View) (x y : Option (CTy × RVal)) : Prop := x = y ∧ ∀ r, y = some r → COk v r.1

theorem Agree.none : Agree v none none := ⟨rfl, fun r hr => by cases hr⟩

theorem Agree.bind {α : Type} {x y : Option α} {f g : α → Option (CTy × RVal)} (h : x = y)
    (hf : ∀ a, y = some a → Agree v (f a) (g a)) : Agree v (x.bind f) (y.bind g) := by
  subst h
  cases x with
  | none => exact Agree.none
  | some a => exact hf a rfl

theorem Agree.map {α : Type} {x y : Option α} {f : α → CTy × RVal} (h : x = y)
    (hf : ∀ a, y = some a → COk v (f a).1) : Agree v (x.map f) (y.map f) := by
  subst h
  cases x with
  | none => exact Agree.none
  | some a => exact ⟨rfl, fun r hr => by injection hr with hr; subst hr; exact hf a rfl⟩

theorem some_ok {c : CTy} (h : COk v c) : ∀ d, some c = some d → COk v d := fun d hd => by
  injection hd with hd
  subst hd
  exact h

theorem none_ok : ∀ d, (none : Option CTy) = some d → COk v d := fun d hd => by cases hd

/-- The type in `<T as Tr>::f`. -/
def calleeSelf (g : Sem) (s : Scope) (want : Option CTy) (t : RustCode.Ty) : Option CTy :=
  match t with
  | .path ["_"] _ => want
  | t => g.norm s t

/-- The trait in `<T as Tr>::f`. -/
def calleeTrait (ix : Index) (s : Scope) (f : String) (via : RustCode.Ty) : Option (List String) :=
  match via with
  | .path p _ => resolveName ix.names s.module p
  | _ => ownerOf ix s [] f

theorem calleeSelf_same (hg : Same v g g') {s : Scope} (hs : ScopeOk v s) {want : Option CTy}
    (hw : ∀ c, want = some c → COk v c) {t : RustCode.Ty} (ht : TyOk v s.module t) :
    calleeSelf g s want t = calleeSelf g' s want t ∧ ∀ c, calleeSelf g' s want t = some c → COk v c := by
  have hn := hg.norm hs ht
  clear ht
  unfold calleeSelf
  split
  · exact ⟨rfl, hw⟩
  · exact hn

theorem calleeTrait_same (h : Conserves v ix ix' o o') {s : Scope} (hs : ScopeOk v s) {f : String} {via : RustCode.Ty}
    (hv : ViaOk v s.module via) (hf : v.item f) :
    calleeTrait ix s f via = calleeTrait ix' s f via ∧ ∀ t, calleeTrait ix' s f via = some t → v.trait t := by
  have ho := ownerOf_same h hs [] hf
  cases via with
  | path p cs => exact h.via (show v.via s.module p from hv)
  | _ => exact ho

theorem eval_same (h : Conserves v ix ix' o o') (hg : Same v g g') {s : Scope} (hs : ScopeOk v s) {l : Locals}
    (hl : ∀ x ∈ l, COk v x.2.1) {want : Option CTy} (hw : ∀ c, want = some c → COk v c) {e : Expr}
    (he : ExprOk v s.module e) : Agree v (evalRule ix o g s l want e) (evalRule ix' o' g' s l want e) := by
  cases e with
  | num => exact Agree.none
  | str => exact Agree.none
  | chr => exact Agree.none
  | var x => exact ⟨rfl, fun r hr => locals_ok hl hr⟩
  | path => exact Agree.none
  | turbofish => exact Agree.none
  | index => exact Agree.none
  | attempt => exact Agree.none
  | ref => exact Agree.none
  | range => exact Agree.none
  | rangeIncl => exact Agree.none
  | assign => exact Agree.none
  | addAssign => exact Agree.none
  | array => exact Agree.none
  | cond => exact Agree.none
  | condLet => exact Agree.none
  | loop => exact Agree.none
  | each => exact Agree.none
  | arms => exact Agree.none
  | closure => exact Agree.none
  | mac => exact Agree.none
  | unit => exact Agree.none
  | deref e =>
    unfold ExprOk at he
    exact hg.eval hs hl hw he
  | field e f =>
    unfold ExprOk at he
    obtain ⟨h1, h2⟩ := hg.eval hs hl none_ok he
    refine Agree.bind h1 fun r hr => ?_
    obtain ⟨h3, h4⟩ := fieldsOf_same h hg (h2 r hr)
    refine Agree.bind h3 fun fs hfs => Agree.bind rfl fun c hc => Agree.map rfl fun x _ => ?_
    exact h4 fs hfs _ (lookup_mem hc)
  | cast e t =>
    unfold ExprOk at he
    obtain ⟨h1, h2⟩ := hg.norm hs he.2
    refine Agree.bind h1 fun c hc => Agree.bind (hg.layout (h2 c hc)) fun r _ =>
      Agree.bind (hg.eval hs hl none_ok he.1).1 fun x _ => Agree.map rfl fun _ _ => h2 c hc
  | bin op a b =>
    unfold ExprOk at he
    cases op <;> try exact Agree.none
    cases b <;> try exact Agree.none
    obtain ⟨h1, h2⟩ := hg.eval hs hl none_ok he.1
    refine Agree.bind h1 fun r hr => Agree.bind (hg.layout (h2 r hr)) fun t _ => Agree.map rfl fun _ _ => ?_
    unfold COk COks
    exact ⟨h.bool, trivial⟩
  | method e f args =>
    unfold ExprOk at he
    cases args with
    | cons _ _ => exact Agree.none
    | nil =>
      obtain ⟨h1, h2⟩ := hg.eval hs hl none_ok he.1
      refine Agree.bind h1 fun r hr => ?_
      split
      · exact Agree.bind rfl fun d hd => Agree.map (convert_same h hg (h2 r hr) (hw d hd) _) fun _ _ => hw d hd
      · next hf =>
        obtain ⟨h3, h4⟩ := ownerOf_same h hs [] (he.2.1.resolve_left hf)
        refine Agree.bind h3 fun tr htr => ?_
        obtain ⟨h5, h6⟩ := find_same hg (h4 tr htr) (args := []) (by trivial) (h2 r hr)
        exact Agree.bind h5 fun i hi => call_same hg (h6 i hi) _ (fun x hx => by injection hx with hx; subst hx; exact h2 r hr)
          (fun x hx => by cases hx)
  | call f args =>
    unfold ExprOk at he
    obtain ⟨hf, hv1, ha⟩ := he
    cases f <;> try exact Agree.none
    case var x =>
      unfold CalleeOk at hf
      obtain ⟨h1, -⟩ := h.path hf
      rcases args with _ | ⟨e, _ | ⟨e', r⟩⟩
      · exact Agree.none
      · unfold ExprsOk at ha
        refine Agree.bind rfl fun d hd => ?_
        cases d with
        | array => exact Agree.none
        | named p cs =>
          dsimp only
          rw [h1]
          split
          · obtain ⟨h2, h3⟩ := fieldsOf_same h hg (hw _ hd)
            refine Agree.bind h2 fun fs hfs => Agree.map (hg.eval hs hl (fields_want (h3 fs hfs) _) ha.1).1 fun _ _ => hw _ hd
          · exact Agree.none
      · exact Agree.none
    case path p =>
      unfold CalleeOk at hf
      cases p <;> try exact Agree.none
      case path p cs =>
        rcases args with _ | ⟨e, _ | ⟨e', r⟩⟩
        · show Agree v (if p = ["bytemuck", "Zeroable", "zeroed"] then _ else none) (if p = ["bytemuck", "Zeroable", "zeroed"] then _ else none)
          split
          · refine Agree.bind rfl fun d hd => Agree.bind (hg.implements h.zeroable (hw d hd)) fun ok _ => ?_
            split
            · exact Agree.map (hg.layout (hw d hd)) fun _ _ => hw d hd
            · exact Agree.none
          · exact Agree.none
        · unfold ExprsOk at ha
          obtain ⟨h1, h2⟩ := h.via (show v.via s.module p.dropLast from hv1 rfl)
          refine Agree.bind rfl fun c hc => Agree.bind rfl fun f hf => Agree.bind h1 fun tr htr => ?_
          obtain ⟨h3, h4⟩ := find_same hg (h2 tr htr) (args := []) (by trivial) (hw c hc)
          refine Agree.bind h3 fun i hi => ?_
          obtain ⟨h5, h6⟩ := hg.eval hs hl none_ok ha.1
          exact Agree.bind h5 fun r hr => call_same hg (h4 i hi) _ (fun x hx => by cases hx)
            (fun x hx => by rcases List.mem_singleton.1 hx with rfl; exact h6 _ hr)
        · exact Agree.none
      case proj t via ns =>
        unfold PathOk at hf
        rcases ns with _ | ⟨f, _ | ⟨f', ns⟩⟩
        · exact Agree.none
        · rcases args with _ | ⟨e, _ | ⟨e', r⟩⟩
          · exact Agree.none
          · unfold ExprsOk at ha
            have hn := calleeSelf_same hg hs hw hf.1
            have hv := calleeTrait_same h hs hf.2.1 (hf.2.2 f List.mem_cons_self)
            refine Agree.bind hn.1 fun c hc => Agree.bind hv.1 fun tr htr => ?_
            obtain ⟨h1, h2⟩ := find_same hg (hv.2 tr htr) (args := []) (by trivial) (hn.2 c hc)
            refine Agree.bind h1 fun i hi => ?_
            obtain ⟨h3, h4⟩ := hg.eval hs hl none_ok ha.1
            exact Agree.bind h3 fun r hr => call_same hg (h2 i hi) _ (fun x hx => by cases hx)
              (fun x hx => by rcases List.mem_singleton.1 hx with rfl; exact h4 _ hr)
          · exact Agree.none
        · exact Agree.none
  | struct p names es =>
    unfold ExprOk at he
    obtain ⟨h1, h2⟩ := hg.norm hs he.1
    refine Agree.bind h1 fun d hd => ?_
    obtain ⟨h3, h4⟩ := fieldsOf_same h hg (h2 d hd)
    refine Agree.bind h3 fun fs hfs => Agree.bind (evalFields_same hg hs hl (h4 fs hfs) names he.2) fun _ _ =>
      Agree.map rfl fun _ _ => h2 d hd
  | structBase p names es b =>
    unfold ExprOk at he
    obtain ⟨h1, h2⟩ := hg.norm hs he.1
    refine Agree.bind h1 fun d hd => ?_
    obtain ⟨h3, h4⟩ := fieldsOf_same h hg (h2 d hd)
    refine Agree.bind h3 fun fs hfs => Agree.bind (evalFields_same hg hs hl (h4 fs hfs) names he.2.1) fun _ _ =>
      Agree.bind (hg.eval hs hl (some_ok (h2 d hd)) he.2.2).1 fun _ _ => Agree.map rfl fun _ _ => h2 d hd
  | block ss e =>
    unfold ExprOk at he
    obtain ⟨h1, h2⟩ := evalStmts_same hg hs hl he.1
    exact Agree.bind h1 fun l' hl' => hg.eval hs (h2 l' hl') hw he.2

theorem constLets_same (hg : Same v g g') {s : Scope} (hs : ScopeOk v s) : ∀ {ss : List Stmt} {l : List (String × Const)},
    StmtsOk v s.module ss → constLets g s l ss = constLets g' s l ss
  | [], l, _ => rfl
  | .bind true x t e :: r, l, hss => rfl
  | .bindTuple _ _ :: r, l, hss => rfl
  | .expr _ :: r, l, hss => rfl
  | .bind false x t e :: r, l, hss => by
    unfold StmtsOk StmtOk at hss
    unfold constLets
    exact bind_same (hg.const hs hss.1.2) fun _ _ => constLets_same hg hs hss.2

theorem const_same (h : Conserves v ix ix' o o') (hg : Same v g g') {s : Scope} (hs : ScopeOk v s)
    {l : List (String × Const)} {e : Expr} (he : ExprOk v s.module e) :
    constRule ix o g s l e = constRule ix' o' g' s l e := by
  cases e with
  | path p =>
    unfold ExprOk at he
    cases p <;> try rfl
    case path p cs =>
      unfold PathOk at he
      obtain ⟨h1, h2⟩ := hg.norm hs (show TyOk v s.module (.path p.dropLast []) by unfold TyOk TysOk; exact ⟨he.1, trivial⟩)
      refine bind_same h1 fun c hc => bind_same rfl fun x hx => ?_
      obtain ⟨h3, h4⟩ := ownerOf_same h hs p.dropLast (he.2 x hx)
      refine bind_same h3 fun tr htr => ?_
      obtain ⟨h5, h6⟩ := find_same hg (h4 tr htr) (args := []) (by trivial) (h2 c hc)
      exact bind_same h5 fun f hf => bind_same rfl fun e' he' => hg.const (h6 f hf).scope (assocConst_ok (h6 f hf).items he')
    case proj t via ns =>
      unfold PathOk at he
      rcases ns with _ | ⟨x, _ | ⟨y, ns⟩⟩
      · rfl
      · obtain ⟨h1, h2⟩ := hg.norm hs he.1
        refine bind_same h1 fun c hc => ?_
        obtain ⟨h3, h4⟩ := calleeTrait_same h hs he.2.1 (he.2.2 x List.mem_cons_self)
        refine bind_same h3 fun tr htr => ?_
        obtain ⟨h5, h6⟩ := find_same hg (h4 tr htr) (args := []) (by trivial) (h2 c hc)
        exact bind_same h5 fun f hf => bind_same rfl fun e' he' => hg.const (h6 f hf).scope (assocConst_ok (h6 f hf).items he')
      · rfl
  | call f args =>
    unfold ExprOk at he
    cases f <;> try rfl
    case path p =>
      cases p <;> try rfl
      case path p cs =>
        unfold CalleeOk at he
        obtain ⟨h1, -⟩ := h.path he.1.1
        show (if p = ["core", "mem", "size_of"] then _ else _) = (if p = ["core", "mem", "size_of"] then _ else _)
        split
        · next hp =>
          obtain ⟨hz, ht⟩ := he.1.2 hp
          rcases cs with _ | ⟨t, _ | ⟨t', cs⟩⟩
          · rfl
          · cases args with
            | nil =>
              unfold TysOk at ht
              obtain ⟨h2, h3⟩ := hg.norm hs ht.1
              exact bind_same h2 fun c hc => bind_same (hg.layout (h3 c hc)) fun r _ => by rw [h.sized hz]
            | cons _ _ => rfl
          · rfl
        · exact bind_same h1 fun q _ => bind_same (mapM_same fun a ha => hg.const hs (exprsOk_iff.1 he.2.2 a ha)) fun vs _ =>
            h.constFn q vs
    case var f =>
      unfold CalleeOk at he
      obtain ⟨h1, h2⟩ := h.path he.1
      refine bind_same h1 fun p hp => ?_
      obtain ⟨h3, h4⟩ := h.fns (h2 p hp)
      refine bind_same h3 fun fn hfn => bind_same (mapM_same fun a ha => hg.const hs (exprsOk_iff.1 he.2.2 a ha)) fun vs _ =>
        bind_same rfl fun b hb => ?_
      exact hg.const ⟨fun x hx => (by cases hx), fun x hx => (by cases hx), fun x hx => (by cases hx)⟩ (h4 fn hfn b hb)
  | cond c t e =>
    unfold ExprOk at he
    obtain ⟨hc, ht, he⟩ := he
    cases c <;> try rfl
    case bin op a b =>
      cases op <;> try rfl
      unfold ExprOk at hc
      refine bind_same (hg.const hs hc.1) fun x _ => bind_same (hg.const hs hc.2) fun y _ => ?_
      cases x <;> try rfl
      cases y <;> try rfl
      dsimp only
      rw [hg.const hs ht, hg.const hs he]
  | block ss e =>
    unfold ExprOk at he
    exact bind_same (constLets_same hg hs he.1) fun l' _ => hg.const hs he.2
  | bin op a b =>
    unfold ExprOk at he
    cases op <;> try rfl
    exact bind_same (hg.const hs he.1) fun x _ => bind_same rfl fun x _ => bind_same (hg.const hs he.2) fun _ _ => rfl
  | array es =>
    unfold ExprOk at he
    exact map_same (mapM_same fun e hm => bind_same (hg.const hs (exprsOk_iff.1 he e hm)) fun _ _ => rfl) fun _ _ => rfl
  | _ => rfl

/-- Two crates agree on everything that can be mentioned. -/
theorem sem_same (h : Conserves v ix ix' o o') : ∀ n, Same v (sem ix o n) (sem ix' o' n)
  | 0 =>
    { norm := fun _ _ => ⟨rfl, fun c hc => by cases hc⟩
      candidates := fun _ _ _ => ⟨rfl, fun c hc => by cases hc⟩
      implements := fun _ _ => rfl
      layout := fun _ => rfl
      eval := fun _ _ _ _ => ⟨rfl, fun c hc => by cases hc⟩
      const := fun _ _ => rfl }
  | n + 1 =>
    have ih := sem_same h n
    { norm := fun hs ht => norm_same h ih hs ht
      candidates := fun ht ha hc => candidates_same h ih ht ha hc
      implements := fun ht hc => implements_same h ih ht hc
      layout := fun hc => layout_same h ih hc
      eval := fun hs hl hw he => eval_same h ih hs hl hw he
      const := fun hs he => const_same h ih hs he }

end
end RustTypes
