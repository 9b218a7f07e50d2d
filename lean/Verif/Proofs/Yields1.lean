import Verif.Proofs.YieldBase
/-
GENERATED by tools/gen_yields.py.
Building the node of each grammar rule from the trees of its right-hand side.
-/
set_option linter.all false
namespace Pycep
theorem y_1 {n : Nat} :
    Y N.«start» (nd "start" []) [] n :=
  Y.node ⟨N.«start», [], "start", false, [], 0⟩ (by decide +kernel) rfl (by decide) (free_plain (by decide) (by decide)) (cs := []) (by have : YL [] [] ([]) n := .nil; simpa only [List.append_assoc, List.nil_append, List.append_nil, List.cons_append, nextT_append, nextT_cons, nextT_nil] using this) (by simp only [keepKids', List.flatMap_cons, List.flatMap_nil, List.replicate_zero, List.replicate_succ, List.getElem?_cons_zero, List.getElem?_cons_succ, Bool.false_eq_true, if_true, if_false, List.append_nil, List.nil_append, List.cons_append, List.append_assoc, kidsOf_nd] <;> rfl)

theorem y_4 {n : Nat} {u0 : Tok} {u1 : Tok} {u2 : Tok} {c3 : Tree} {w3 : List Tok} {u4 : Tok} {u5 : Tok} (k0 : u0.type = T.«EXTENSION») (k1 : u1.type = T.«STRING») (k2 : u2.type = T.«WITH») (h3 : Y N.«object» c3 w3 u4.type) (k4 : u4.type = T.«AS») (k5 : u5.type = T.«STRING») {l : Lines} (hl : LinesOf l (u0 :: (u1 :: (u2 :: (w3 ++ (u4 :: [u5])))))) :
    Y N.«element» (ndl "extension" (tk T.«STRING» u1.text :: (c3 :: [tk T.«STRING» u5.text])) l) (u0 :: (u1 :: (u2 :: (w3 ++ (u4 :: [u5]))))) n :=
  Y.nodeL ⟨N.«element», [T.«EXTENSION», T.«STRING», T.«WITH», N.«object», T.«AS», T.«STRING»], "extension", false, [(1, false, 0), (3, false, 0), (5, false, 0)], 0⟩ (by decide +kernel) rfl (by decide) (free_plain (by decide) (by decide)) hl (cs := [tk T.«EXTENSION» u0.text, tk T.«STRING» u1.text, tk T.«WITH» u2.text, c3, tk T.«AS» u4.text, tk T.«STRING» u5.text]) (by have : YL [T.«EXTENSION», T.«STRING», T.«WITH», N.«object», T.«AS», T.«STRING»] [tk T.«EXTENSION» u0.text, tk T.«STRING» u1.text, tk T.«WITH» u2.text, c3, tk T.«AS» u4.text, tk T.«STRING» u5.text] (u0 :: (u1 :: (u2 :: (w3 ++ (u4 :: (u5 :: ([]))))))) n := (.tok k0 (by decide) (.tok k1 (by decide) (.tok k2 (by decide) (.nt (by simpa only [List.append_assoc, List.nil_append, List.append_nil, List.cons_append, nextT_append, nextT_cons, nextT_nil] using h3) (.tok k4 (by decide) (.tok k5 (by decide) .nil)) (fun h h' => by first | exact absurd h (by decide) | exact absurd h' (by decide)))))); simpa only [List.append_assoc, List.nil_append, List.append_nil, List.cons_append, nextT_append, nextT_cons, nextT_nil] using this) (by simp only [keepKids', List.flatMap_cons, List.flatMap_nil, List.replicate_zero, List.replicate_succ, List.getElem?_cons_zero, List.getElem?_cons_succ, Bool.false_eq_true, if_true, if_false, List.append_nil, List.nil_append, List.cons_append, List.append_assoc, kidsOf_nd] <;> rfl)

theorem y_7 {n : Nat} {u0 : Tok} {u1 : Tok} (k0 : u0.type = T.«EXTENSION») (k1 : u1.type = T.«STRING») {l : Lines} (hl : LinesOf l (u0 :: [u1])) :
    Y N.«element» (ndl "extension" (tk T.«STRING» u1.text :: (Tree.none :: [Tree.none])) l) (u0 :: [u1]) n :=
  Y.nodeL ⟨N.«element», [T.«EXTENSION», T.«STRING»], "extension", false, [(1, false, 0)], 2⟩ (by decide +kernel) rfl (by decide) (free_plain (by decide) (by decide)) hl (cs := [tk T.«EXTENSION» u0.text, tk T.«STRING» u1.text]) (by have : YL [T.«EXTENSION», T.«STRING»] [tk T.«EXTENSION» u0.text, tk T.«STRING» u1.text] (u0 :: (u1 :: ([]))) n := (.tok k0 (by decide) (.tok k1 (by decide) .nil)); simpa only [List.append_assoc, List.nil_append, List.append_nil, List.cons_append, nextT_append, nextT_cons, nextT_nil] using this) (by simp only [keepKids', List.flatMap_cons, List.flatMap_nil, List.replicate_zero, List.replicate_succ, List.getElem?_cons_zero, List.getElem?_cons_succ, Bool.false_eq_true, if_true, if_false, List.append_nil, List.nil_append, List.cons_append, List.append_assoc, kidsOf_nd] <;> rfl)

theorem y_10 {n : Nat} {c0 : Tree} {w0 : List Tok} {u1 : Tok} {u2 : Tok} {c3 : Tree} {w3 : List Tok} {u4 : Tok} (h0 : Y N.«decorators» c0 w0 u1.type) (k1 : u1.type = T.«PARAM») (k2 : u2.type = T.«STRING») (h3 : Y N.«data_type» c3 w3 u4.type) (k4 : u4.type = T.«QMARK») {l : Lines} (hl : LinesOf l (w0 ++ (u1 :: (u2 :: (w3 ++ [u4]))))) :
    Y N.«element» (ndl "param" (c0 :: (tk T.«STRING» u2.text :: (c3 :: [Tree.none]))) l) (w0 ++ (u1 :: (u2 :: (w3 ++ [u4])))) n :=
  Y.nodeL ⟨N.«element», [N.«decorators», T.«PARAM», T.«STRING», N.«data_type», T.«QMARK»], "param", false, [(0, false, 0), (2, false, 0), (3, false, 0)], 1⟩ (by decide +kernel) rfl (by decide) (free_plain (by decide) (by decide)) hl (cs := [c0, tk T.«PARAM» u1.text, tk T.«STRING» u2.text, c3, tk T.«QMARK» u4.text]) (by have : YL [N.«decorators», T.«PARAM», T.«STRING», N.«data_type», T.«QMARK»] [c0, tk T.«PARAM» u1.text, tk T.«STRING» u2.text, c3, tk T.«QMARK» u4.text] (w0 ++ (u1 :: (u2 :: (w3 ++ (u4 :: ([])))))) n := (.nt (by simpa only [List.append_assoc, List.nil_append, List.append_nil, List.cons_append, nextT_append, nextT_cons, nextT_nil] using h0) (.tok k1 (by decide) (.tok k2 (by decide) (.nt (by simpa only [List.append_assoc, List.nil_append, List.append_nil, List.cons_append, nextT_append, nextT_cons, nextT_nil] using h3) (.tok k4 (by decide) .nil) (fun h h' => by first | exact absurd h (by decide) | exact absurd h' (by decide))))) (fun h h' => by first | exact absurd h (by decide) | exact absurd h' (by decide))); simpa only [List.append_assoc, List.nil_append, List.append_nil, List.cons_append, nextT_append, nextT_cons, nextT_nil] using this) (by simp only [keepKids', List.flatMap_cons, List.flatMap_nil, List.replicate_zero, List.replicate_succ, List.getElem?_cons_zero, List.getElem?_cons_succ, Bool.false_eq_true, if_true, if_false, List.append_nil, List.nil_append, List.cons_append, List.append_assoc, kidsOf_nd] <;> rfl)

theorem y_13 {n : Nat} {u0 : Tok} {u1 : Tok} {c2 : Tree} {w2 : List Tok} {u3 : Tok} {u4 : Tok} {c5 : Tree} {w5 : List Tok} (k0 : u0.type = T.«PARAM») (k1 : u1.type = T.«STRING») (h2 : Y N.«data_type» c2 w2 u3.type) (k3 : u3.type = T.«QMARK») (k4 : u4.type = T.«EQUAL») (h5 : Y N.«value_brackets» c5 w5 n) (hn : NoInfix n) {l : Lines} (hl : LinesOf l (u0 :: (u1 :: (w2 ++ (u3 :: (u4 :: w5)))))) :
    Y N.«element» (ndl "param" (Tree.none :: (tk T.«STRING» u1.text :: (c2 :: [c5]))) l) (u0 :: (u1 :: (w2 ++ (u3 :: (u4 :: w5))))) n :=
  Y.nodeL ⟨N.«element», [T.«PARAM», T.«STRING», N.«data_type», T.«QMARK», T.«EQUAL», N.«value_brackets»], "param", false, [(1, false, 1), (2, false, 0), (5, false, 0)], 0⟩ (by decide +kernel) rfl (by decide) (free_infix (by decide) hn) hl (cs := [tk T.«PARAM» u0.text, tk T.«STRING» u1.text, c2, tk T.«QMARK» u3.text, tk T.«EQUAL» u4.text, c5]) (by have : YL [T.«PARAM», T.«STRING», N.«data_type», T.«QMARK», T.«EQUAL», N.«value_brackets»] [tk T.«PARAM» u0.text, tk T.«STRING» u1.text, c2, tk T.«QMARK» u3.text, tk T.«EQUAL» u4.text, c5] (u0 :: (u1 :: (w2 ++ (u3 :: (u4 :: (w5 ++ ([]))))))) n := (.tok k0 (by decide) (.tok k1 (by decide) (.nt (by simpa only [List.append_assoc, List.nil_append, List.append_nil, List.cons_append, nextT_append, nextT_cons, nextT_nil] using h2) (.tok k3 (by decide) (.tok k4 (by decide) (.nt (by simpa only [List.append_assoc, List.nil_append, List.append_nil, List.cons_append, nextT_append, nextT_cons, nextT_nil] using h5) .nil (fun h h' => by first | exact absurd h (by decide) | exact absurd h' (by decide))))) (fun h h' => by first | exact absurd h (by decide) | exact absurd h' (by decide))))); simpa only [List.append_assoc, List.nil_append, List.append_nil, List.cons_append, nextT_append, nextT_cons, nextT_nil] using this) (by simp only [keepKids', List.flatMap_cons, List.flatMap_nil, List.replicate_zero, List.replicate_succ, List.getElem?_cons_zero, List.getElem?_cons_succ, Bool.false_eq_true, if_true, if_false, List.append_nil, List.nil_append, List.cons_append, List.append_assoc, kidsOf_nd] <;> rfl)

theorem y_16 {n : Nat} {u0 : Tok} {u1 : Tok} {c2 : Tree} {w2 : List Tok} (k0 : u0.type = T.«PARAM») (k1 : u1.type = T.«STRING») (h2 : Y N.«data_type» c2 w2 n) {l : Lines} (hl : LinesOf l (u0 :: (u1 :: w2))) :
    Y N.«element» (ndl "param" (Tree.none :: (tk T.«STRING» u1.text :: (c2 :: [Tree.none]))) l) (u0 :: (u1 :: w2)) n :=
  Y.nodeL ⟨N.«element», [T.«PARAM», T.«STRING», N.«data_type»], "param", false, [(1, false, 1), (2, false, 0)], 1⟩ (by decide +kernel) rfl (by decide) (free_plain (by decide) (by decide)) hl (cs := [tk T.«PARAM» u0.text, tk T.«STRING» u1.text, c2]) (by have : YL [T.«PARAM», T.«STRING», N.«data_type»] [tk T.«PARAM» u0.text, tk T.«STRING» u1.text, c2] (u0 :: (u1 :: (w2 ++ ([])))) n := (.tok k0 (by decide) (.tok k1 (by decide) (.nt (by simpa only [List.append_assoc, List.nil_append, List.append_nil, List.cons_append, nextT_append, nextT_cons, nextT_nil] using h2) .nil (fun h h' => by first | exact absurd h (by decide) | exact absurd h' (by decide))))); simpa only [List.append_assoc, List.nil_append, List.append_nil, List.cons_append, nextT_append, nextT_cons, nextT_nil] using this) (by simp only [keepKids', List.flatMap_cons, List.flatMap_nil, List.replicate_zero, List.replicate_succ, List.getElem?_cons_zero, List.getElem?_cons_succ, Bool.false_eq_true, if_true, if_false, List.append_nil, List.nil_append, List.cons_append, List.append_assoc, kidsOf_nd] <;> rfl)

theorem y_19 {n : Nat} {c0 : Tree} {w0 : List Tok} {u1 : Tok} {u2 : Tok} {u3 : Tok} {c4 : Tree} {w4 : List Tok} (h0 : Y N.«decorators» c0 w0 u1.type) (k1 : u1.type = T.«VAR») (k2 : u2.type = T.«STRING») (k3 : u3.type = T.«EQUAL») (h4 : Y N.«var_value» c4 w4 n) {l : Lines} (hl : LinesOf l (w0 ++ (u1 :: (u2 :: (u3 :: w4))))) :
    Y N.«element» (ndl "var" (c0 :: (tk T.«STRING» u2.text :: (Tree.none :: [c4]))) l) (w0 ++ (u1 :: (u2 :: (u3 :: w4)))) n :=
  Y.nodeL ⟨N.«element», [N.«decorators», T.«VAR», T.«STRING», T.«EQUAL», N.«var_value»], "var", false, [(0, false, 0), (2, false, 0), (4, false, 1)], 0⟩ (by decide +kernel) rfl (by decide) (free_plain (by decide) (by decide)) hl (cs := [c0, tk T.«VAR» u1.text, tk T.«STRING» u2.text, tk T.«EQUAL» u3.text, c4]) (by have : YL [N.«decorators», T.«VAR», T.«STRING», T.«EQUAL», N.«var_value»] [c0, tk T.«VAR» u1.text, tk T.«STRING» u2.text, tk T.«EQUAL» u3.text, c4] (w0 ++ (u1 :: (u2 :: (u3 :: (w4 ++ ([])))))) n := (.nt (by simpa only [List.append_assoc, List.nil_append, List.append_nil, List.cons_append, nextT_append, nextT_cons, nextT_nil] using h0) (.tok k1 (by decide) (.tok k2 (by decide) (.tok k3 (by decide) (.nt (by simpa only [List.append_assoc, List.nil_append, List.append_nil, List.cons_append, nextT_append, nextT_cons, nextT_nil] using h4) .nil (fun h h' => by first | exact absurd h (by decide) | exact absurd h' (by decide)))))) (fun h h' => by first | exact absurd h (by decide) | exact absurd h' (by decide))); simpa only [List.append_assoc, List.nil_append, List.append_nil, List.cons_append, nextT_append, nextT_cons, nextT_nil] using this) (by simp only [keepKids', List.flatMap_cons, List.flatMap_nil, List.replicate_zero, List.replicate_succ, List.getElem?_cons_zero, List.getElem?_cons_succ, Bool.false_eq_true, if_true, if_false, List.append_nil, List.nil_append, List.cons_append, List.append_assoc, kidsOf_nd] <;> rfl)

theorem y_22 {n : Nat} {u0 : Tok} {u1 : Tok} {u2 : Tok} {c3 : Tree} {w3 : List Tok} (k0 : u0.type = T.«VAR») (k1 : u1.type = T.«STRING») (k2 : u2.type = T.«EQUAL») (h3 : Y N.«var_value» c3 w3 n) {l : Lines} (hl : LinesOf l (u0 :: (u1 :: (u2 :: w3)))) :
    Y N.«element» (ndl "var" (Tree.none :: (tk T.«STRING» u1.text :: (Tree.none :: [c3]))) l) (u0 :: (u1 :: (u2 :: w3))) n :=
  Y.nodeL ⟨N.«element», [T.«VAR», T.«STRING», T.«EQUAL», N.«var_value»], "var", false, [(1, false, 1), (3, false, 1)], 0⟩ (by decide +kernel) rfl (by decide) (free_plain (by decide) (by decide)) hl (cs := [tk T.«VAR» u0.text, tk T.«STRING» u1.text, tk T.«EQUAL» u2.text, c3]) (by have : YL [T.«VAR», T.«STRING», T.«EQUAL», N.«var_value»] [tk T.«VAR» u0.text, tk T.«STRING» u1.text, tk T.«EQUAL» u2.text, c3] (u0 :: (u1 :: (u2 :: (w3 ++ ([]))))) n := (.tok k0 (by decide) (.tok k1 (by decide) (.tok k2 (by decide) (.nt (by simpa only [List.append_assoc, List.nil_append, List.append_nil, List.cons_append, nextT_append, nextT_cons, nextT_nil] using h3) .nil (fun h h' => by first | exact absurd h (by decide) | exact absurd h' (by decide)))))); simpa only [List.append_assoc, List.nil_append, List.append_nil, List.cons_append, nextT_append, nextT_cons, nextT_nil] using this) (by simp only [keepKids', List.flatMap_cons, List.flatMap_nil, List.replicate_zero, List.replicate_succ, List.getElem?_cons_zero, List.getElem?_cons_succ, Bool.false_eq_true, if_true, if_false, List.append_nil, List.nil_append, List.cons_append, List.append_assoc, kidsOf_nd] <;> rfl)

theorem y_25 {n : Nat} {u0 : Tok} {u1 : Tok} {c2 : Tree} {w2 : List Tok} {u3 : Tok} {u4 : Tok} {c5 : Tree} {w5 : List Tok} (k0 : u0.type = T.«OUTPUT») (k1 : u1.type = T.«STRING») (h2 : Y N.«data_type» c2 w2 u3.type) (k3 : u3.type = T.«QMARK») (k4 : u4.type = T.«EQUAL») (h5 : Y N.«output_value» c5 w5 n) {l : Lines} (hl : LinesOf l (u0 :: (u1 :: (w2 ++ (u3 :: (u4 :: w5)))))) :
    Y N.«element» (ndl "output" (Tree.none :: (tk T.«STRING» u1.text :: (c2 :: [c5]))) l) (u0 :: (u1 :: (w2 ++ (u3 :: (u4 :: w5))))) n :=
  Y.nodeL ⟨N.«element», [T.«OUTPUT», T.«STRING», N.«data_type», T.«QMARK», T.«EQUAL», N.«output_value»], "output", false, [(1, false, 1), (2, false, 0), (5, false, 0)], 0⟩ (by decide +kernel) rfl (by decide) (free_plain (by decide) (by decide)) hl (cs := [tk T.«OUTPUT» u0.text, tk T.«STRING» u1.text, c2, tk T.«QMARK» u3.text, tk T.«EQUAL» u4.text, c5]) (by have : YL [T.«OUTPUT», T.«STRING», N.«data_type», T.«QMARK», T.«EQUAL», N.«output_value»] [tk T.«OUTPUT» u0.text, tk T.«STRING» u1.text, c2, tk T.«QMARK» u3.text, tk T.«EQUAL» u4.text, c5] (u0 :: (u1 :: (w2 ++ (u3 :: (u4 :: (w5 ++ ([]))))))) n := (.tok k0 (by decide) (.tok k1 (by decide) (.nt (by simpa only [List.append_assoc, List.nil_append, List.append_nil, List.cons_append, nextT_append, nextT_cons, nextT_nil] using h2) (.tok k3 (by decide) (.tok k4 (by decide) (.nt (by simpa only [List.append_assoc, List.nil_append, List.append_nil, List.cons_append, nextT_append, nextT_cons, nextT_nil] using h5) .nil (fun h h' => by first | exact absurd h (by decide) | exact absurd h' (by decide))))) (fun h h' => by first | exact absurd h (by decide) | exact absurd h' (by decide))))); simpa only [List.append_assoc, List.nil_append, List.append_nil, List.cons_append, nextT_append, nextT_cons, nextT_nil] using this) (by simp only [keepKids', List.flatMap_cons, List.flatMap_nil, List.replicate_zero, List.replicate_succ, List.getElem?_cons_zero, List.getElem?_cons_succ, Bool.false_eq_true, if_true, if_false, List.append_nil, List.nil_append, List.cons_append, List.append_assoc, kidsOf_nd] <;> rfl)

theorem y_28 {n : Nat} {c0 : Tree} {w0 : List Tok} {u1 : Tok} {u2 : Tok} {c3 : Tree} {w3 : List Tok} {u4 : Tok} {c5 : Tree} {w5 : List Tok} (h0 : Y N.«decorators» c0 w0 u1.type) (k1 : u1.type = T.«RESOURCE») (k2 : u2.type = T.«STRING») (h3 : Y N.«type_api_pair» c3 w3 u4.type) (k4 : u4.type = T.«EQUAL») (h5 : Y N.«resource_value» c5 w5 n) {l : Lines} (hl : LinesOf l (w0 ++ (u1 :: (u2 :: (w3 ++ (u4 :: w5)))))) :
    Y N.«element» (ndl "resource" (c0 :: (tk T.«STRING» u2.text :: (c3 :: (Tree.none :: [c5])))) l) (w0 ++ (u1 :: (u2 :: (w3 ++ (u4 :: w5))))) n :=
  Y.nodeL ⟨N.«element», [N.«decorators», T.«RESOURCE», T.«STRING», N.«type_api_pair», T.«EQUAL», N.«resource_value»], "resource", false, [(0, false, 0), (2, false, 0), (3, false, 0), (5, false, 1)], 0⟩ (by decide +kernel) rfl (by decide) (free_plain (by decide) (by decide)) hl (cs := [c0, tk T.«RESOURCE» u1.text, tk T.«STRING» u2.text, c3, tk T.«EQUAL» u4.text, c5]) (by have : YL [N.«decorators», T.«RESOURCE», T.«STRING», N.«type_api_pair», T.«EQUAL», N.«resource_value»] [c0, tk T.«RESOURCE» u1.text, tk T.«STRING» u2.text, c3, tk T.«EQUAL» u4.text, c5] (w0 ++ (u1 :: (u2 :: (w3 ++ (u4 :: (w5 ++ ([]))))))) n := (.nt (by simpa only [List.append_assoc, List.nil_append, List.append_nil, List.cons_append, nextT_append, nextT_cons, nextT_nil] using h0) (.tok k1 (by decide) (.tok k2 (by decide) (.nt (by simpa only [List.append_assoc, List.nil_append, List.append_nil, List.cons_append, nextT_append, nextT_cons, nextT_nil] using h3) (.tok k4 (by decide) (.nt (by simpa only [List.append_assoc, List.nil_append, List.append_nil, List.cons_append, nextT_append, nextT_cons, nextT_nil] using h5) .nil (fun h h' => by first | exact absurd h (by decide) | exact absurd h' (by decide)))) (fun h h' => by first | exact absurd h (by decide) | exact absurd h' (by decide))))) (fun h h' => by first | exact absurd h (by decide) | exact absurd h' (by decide))); simpa only [List.append_assoc, List.nil_append, List.append_nil, List.cons_append, nextT_append, nextT_cons, nextT_nil] using this) (by simp only [keepKids', List.flatMap_cons, List.flatMap_nil, List.replicate_zero, List.replicate_succ, List.getElem?_cons_zero, List.getElem?_cons_succ, Bool.false_eq_true, if_true, if_false, List.append_nil, List.nil_append, List.cons_append, List.append_assoc, kidsOf_nd] <;> rfl)

theorem y_31 {n : Nat} {c0 : Tree} {w0 : List Tok} {u1 : Tok} {u2 : Tok} {c3 : Tree} {w3 : List Tok} {u4 : Tok} {c5 : Tree} {w5 : List Tok} (h0 : Y N.«decorators» c0 w0 u1.type) (k1 : u1.type = T.«MODULE») (k2 : u2.type = T.«STRING») (h3 : Y N.«module_path» c3 w3 u4.type) (k4 : u4.type = T.«EQUAL») (h5 : Y N.«module_value» c5 w5 n) {l : Lines} (hl : LinesOf l (w0 ++ (u1 :: (u2 :: (w3 ++ (u4 :: w5)))))) :
    Y N.«element» (ndl "module" (c0 :: (tk T.«STRING» u2.text :: (c3 :: [c5]))) l) (w0 ++ (u1 :: (u2 :: (w3 ++ (u4 :: w5))))) n :=
  Y.nodeL ⟨N.«element», [N.«decorators», T.«MODULE», T.«STRING», N.«module_path», T.«EQUAL», N.«module_value»], "module", false, [(0, false, 0), (2, false, 0), (3, false, 0), (5, false, 0)], 0⟩ (by decide +kernel) rfl (by decide) (free_plain (by decide) (by decide)) hl (cs := [c0, tk T.«MODULE» u1.text, tk T.«STRING» u2.text, c3, tk T.«EQUAL» u4.text, c5]) (by have : YL [N.«decorators», T.«MODULE», T.«STRING», N.«module_path», T.«EQUAL», N.«module_value»] [c0, tk T.«MODULE» u1.text, tk T.«STRING» u2.text, c3, tk T.«EQUAL» u4.text, c5] (w0 ++ (u1 :: (u2 :: (w3 ++ (u4 :: (w5 ++ ([]))))))) n := (.nt (by simpa only [List.append_assoc, List.nil_append, List.append_nil, List.cons_append, nextT_append, nextT_cons, nextT_nil] using h0) (.tok k1 (by decide) (.tok k2 (by decide) (.nt (by simpa only [List.append_assoc, List.nil_append, List.append_nil, List.cons_append, nextT_append, nextT_cons, nextT_nil] using h3) (.tok k4 (by decide) (.nt (by simpa only [List.append_assoc, List.nil_append, List.append_nil, List.cons_append, nextT_append, nextT_cons, nextT_nil] using h5) .nil (fun h h' => by first | exact absurd h (by decide) | exact absurd h' (by decide)))) (fun h h' => by first | exact absurd h (by decide) | exact absurd h' (by decide))))) (fun h h' => by first | exact absurd h (by decide) | exact absurd h' (by decide))); simpa only [List.append_assoc, List.nil_append, List.append_nil, List.cons_append, nextT_append, nextT_cons, nextT_nil] using this) (by simp only [keepKids', List.flatMap_cons, List.flatMap_nil, List.replicate_zero, List.replicate_succ, List.getElem?_cons_zero, List.getElem?_cons_succ, Bool.false_eq_true, if_true, if_false, List.append_nil, List.nil_append, List.cons_append, List.append_assoc, kidsOf_nd] <;> rfl)

theorem y_34 {n : Nat} {u0 : Tok} {u1 : Tok} {u2 : Tok} {c3 : Tree} {w3 : List Tok} (k0 : u0.type = T.«TYPE») (k1 : u1.type = T.«STRING») (k2 : u2.type = T.«EQUAL») (h3 : Y N.«type_value» c3 w3 n) {l : Lines} (hl : LinesOf l (u0 :: (u1 :: (u2 :: w3)))) :
    Y N.«element» (ndl "custom_type" (Tree.none :: (tk T.«STRING» u1.text :: [c3])) l) (u0 :: (u1 :: (u2 :: w3))) n :=
  Y.nodeL ⟨N.«element», [T.«TYPE», T.«STRING», T.«EQUAL», N.«type_value»], "custom_type", false, [(1, false, 1), (3, false, 0)], 0⟩ (by decide +kernel) rfl (by decide) (free_plain (by decide) (by decide)) hl (cs := [tk T.«TYPE» u0.text, tk T.«STRING» u1.text, tk T.«EQUAL» u2.text, c3]) (by have : YL [T.«TYPE», T.«STRING», T.«EQUAL», N.«type_value»] [tk T.«TYPE» u0.text, tk T.«STRING» u1.text, tk T.«EQUAL» u2.text, c3] (u0 :: (u1 :: (u2 :: (w3 ++ ([]))))) n := (.tok k0 (by decide) (.tok k1 (by decide) (.tok k2 (by decide) (.nt (by simpa only [List.append_assoc, List.nil_append, List.append_nil, List.cons_append, nextT_append, nextT_cons, nextT_nil] using h3) .nil (fun h h' => by first | exact absurd h (by decide) | exact absurd h' (by decide)))))); simpa only [List.append_assoc, List.nil_append, List.append_nil, List.cons_append, nextT_append, nextT_cons, nextT_nil] using this) (by simp only [keepKids', List.flatMap_cons, List.flatMap_nil, List.replicate_zero, List.replicate_succ, List.getElem?_cons_zero, List.getElem?_cons_succ, Bool.false_eq_true, if_true, if_false, List.append_nil, List.nil_append, List.cons_append, List.append_assoc, kidsOf_nd] <;> rfl)

theorem y_37 {n : Nat} {u0 : Tok} {u1 : Tok} (k0 : u0.type = T.«_NEWLINE») (k1 : u1.type = T.«NULL») :
    Y N.«value» (nd "null" []) (u0 :: [u1]) n :=
  Y.node ⟨N.«value», [T.«_NEWLINE», T.«NULL»], "null", false, [], 0⟩ (by decide +kernel) rfl (by decide) (free_plain (by decide) (by decide)) (cs := [tk T.«_NEWLINE» u0.text, tk T.«NULL» u1.text]) (by have : YL [T.«_NEWLINE», T.«NULL»] [tk T.«_NEWLINE» u0.text, tk T.«NULL» u1.text] (u0 :: (u1 :: ([]))) n := (.tok k0 (by decide) (.tok k1 (by decide) .nil)); simpa only [List.append_assoc, List.nil_append, List.append_nil, List.cons_append, nextT_append, nextT_cons, nextT_nil] using this) (by simp only [keepKids', List.flatMap_cons, List.flatMap_nil, List.replicate_zero, List.replicate_succ, List.getElem?_cons_zero, List.getElem?_cons_succ, Bool.false_eq_true, if_true, if_false, List.append_nil, List.nil_append, List.cons_append, List.append_assoc, kidsOf_nd] <;> rfl)

theorem y_40 {n : Nat} {u0 : Tok} (k0 : u0.type = T.«TRUE») :
    Y N.«value» (nd "true" []) [u0] n :=
  Y.node ⟨N.«value», [T.«TRUE»], "true", false, [], 0⟩ (by decide +kernel) rfl (by decide) (free_plain (by decide) (by decide)) (cs := [tk T.«TRUE» u0.text]) (by have : YL [T.«TRUE»] [tk T.«TRUE» u0.text] (u0 :: ([])) n := (.tok k0 (by decide) .nil); simpa only [List.append_assoc, List.nil_append, List.append_nil, List.cons_append, nextT_append, nextT_cons, nextT_nil] using this) (by simp only [keepKids', List.flatMap_cons, List.flatMap_nil, List.replicate_zero, List.replicate_succ, List.getElem?_cons_zero, List.getElem?_cons_succ, Bool.false_eq_true, if_true, if_false, List.append_nil, List.nil_append, List.cons_append, List.append_assoc, kidsOf_nd] <;> rfl)

theorem y_43 {n : Nat} {u0 : Tok} {u1 : Tok} (k0 : u0.type = T.«_NEWLINE») (k1 : u1.type = T.«INT») :
    Y N.«value» (nd "int_type" [tk T.«INT» u1.text]) (u0 :: [u1]) n :=
  Y.node ⟨N.«value», [T.«_NEWLINE», T.«INT»], "int_type", false, [(1, false, 0)], 0⟩ (by decide +kernel) rfl (by decide) (free_plain (by decide) (by decide)) (cs := [tk T.«_NEWLINE» u0.text, tk T.«INT» u1.text]) (by have : YL [T.«_NEWLINE», T.«INT»] [tk T.«_NEWLINE» u0.text, tk T.«INT» u1.text] (u0 :: (u1 :: ([]))) n := (.tok k0 (by decide) (.tok k1 (by decide) .nil)); simpa only [List.append_assoc, List.nil_append, List.append_nil, List.cons_append, nextT_append, nextT_cons, nextT_nil] using this) (by simp only [keepKids', List.flatMap_cons, List.flatMap_nil, List.replicate_zero, List.replicate_succ, List.getElem?_cons_zero, List.getElem?_cons_succ, Bool.false_eq_true, if_true, if_false, List.append_nil, List.nil_append, List.cons_append, List.append_assoc, kidsOf_nd] <;> rfl)

theorem y_46 {n : Nat} {u0 : Tok} (k0 : u0.type = T.«STRING») :
    Y N.«value» (nd "string" [tk T.«STRING» u0.text]) [u0] n :=
  Y.node ⟨N.«value», [T.«STRING»], "string", false, [(0, false, 0)], 0⟩ (by decide +kernel) rfl (by decide) (free_plain (by decide) (by decide)) (cs := [tk T.«STRING» u0.text]) (by have : YL [T.«STRING»] [tk T.«STRING» u0.text] (u0 :: ([])) n := (.tok k0 (by decide) .nil); simpa only [List.append_assoc, List.nil_append, List.append_nil, List.cons_append, nextT_append, nextT_cons, nextT_nil] using this) (by simp only [keepKids', List.flatMap_cons, List.flatMap_nil, List.replicate_zero, List.replicate_succ, List.getElem?_cons_zero, List.getElem?_cons_succ, Bool.false_eq_true, if_true, if_false, List.append_nil, List.nil_append, List.cons_append, List.append_assoc, kidsOf_nd] <;> rfl)

theorem y_49 {n : Nat} {u0 : Tok} (k0 : u0.type = T.«MULTI_LINE_STRING») :
    Y N.«value» (nd "multi_line_string" [tk T.«MULTI_LINE_STRING» u0.text]) [u0] n :=
  Y.node ⟨N.«value», [T.«MULTI_LINE_STRING»], "multi_line_string", false, [(0, false, 0)], 0⟩ (by decide +kernel) rfl (by decide) (free_plain (by decide) (by decide)) (cs := [tk T.«MULTI_LINE_STRING» u0.text]) (by have : YL [T.«MULTI_LINE_STRING»] [tk T.«MULTI_LINE_STRING» u0.text] (u0 :: ([])) n := (.tok k0 (by decide) .nil); simpa only [List.append_assoc, List.nil_append, List.append_nil, List.cons_append, nextT_append, nextT_cons, nextT_nil] using this) (by simp only [keepKids', List.flatMap_cons, List.flatMap_nil, List.replicate_zero, List.replicate_succ, List.getElem?_cons_zero, List.getElem?_cons_succ, Bool.false_eq_true, if_true, if_false, List.append_nil, List.nil_append, List.cons_append, List.append_assoc, kidsOf_nd] <;> rfl)

theorem y_52 {n : Nat} {u0 : Tok} {c1 : Tree} {w1 : List Tok} (k0 : u0.type = T.«_NEWLINE») (h1 : Y N.«function» c1 w1 n) (hm : isMeta c1 = false) :
    Y N.«value» (c1) (u0 :: w1) n :=
  Y.ex ⟨N.«value», [T.«_NEWLINE», N.«function»], "value", true, [(1, false, 0)], 0⟩ (by decide +kernel) rfl (by decide) (free_plain (by decide) (by decide)) (cs := [tk T.«_NEWLINE» u0.text, c1]) (by have : YL [T.«_NEWLINE», N.«function»] [tk T.«_NEWLINE» u0.text, c1] (u0 :: (w1 ++ ([]))) n := (.tok k0 (by decide) (.nt (by simpa only [List.append_assoc, List.nil_append, List.append_nil, List.cons_append, nextT_append, nextT_cons, nextT_nil] using h1) .nil (fun h h' => by first | exact absurd h (by decide) | exact absurd h' (by decide)))); simpa only [List.append_assoc, List.nil_append, List.append_nil, List.cons_append, nextT_append, nextT_cons, nextT_nil] using this) (by simp only [keepKids', List.flatMap_cons, List.flatMap_nil, List.replicate_zero, List.replicate_succ, List.getElem?_cons_zero, List.getElem?_cons_succ, Bool.false_eq_true, if_true, if_false, List.append_nil, List.nil_append, List.cons_append, List.append_assoc, kidsOf_nd] <;> rfl) hm

theorem y_55 {n : Nat} {c0 : Tree} {w0 : List Tok} (h0 : Y N.«lambda_expression» c0 w0 n) (hm : isMeta c0 = false) :
    Y N.«value» (c0) w0 n :=
  Y.ex ⟨N.«value», [N.«lambda_expression»], "value", true, [(0, false, 0)], 0⟩ (by decide +kernel) rfl (by decide) (free_plain (by decide) (by decide)) (cs := [c0]) (by have : YL [N.«lambda_expression»] [c0] (w0 ++ ([])) n := (.nt (by simpa only [List.append_assoc, List.nil_append, List.append_nil, List.cons_append, nextT_append, nextT_cons, nextT_nil] using h0) .nil (fun h h' => by first | exact absurd h (by decide) | exact absurd h' (by decide))); simpa only [List.append_assoc, List.nil_append, List.append_nil, List.cons_append, nextT_append, nextT_cons, nextT_nil] using this) (by simp only [keepKids', List.flatMap_cons, List.flatMap_nil, List.replicate_zero, List.replicate_succ, List.getElem?_cons_zero, List.getElem?_cons_succ, Bool.false_eq_true, if_true, if_false, List.append_nil, List.nil_append, List.cons_append, List.append_assoc, kidsOf_nd] <;> rfl) hm

theorem y_58 {n : Nat} {u0 : Tok} {c1 : Tree} {w1 : List Tok} {u2 : Tok} {u3 : Tok} (k0 : u0.type = T.«LPAR») (h1 : Y N.«value» c1 w1 u2.type) (k2 : u2.type = T.«RPAR») (k3 : u3.type = T.«BANG») (hm : isMeta c1 = false) :
    Y N.«value_brackets» (c1) (u0 :: (w1 ++ (u2 :: [u3]))) n :=
  Y.ex ⟨N.«value_brackets», [T.«LPAR», N.«value», T.«RPAR», T.«BANG»], "value_brackets", true, [(1, false, 0)], 0⟩ (by decide +kernel) rfl (by decide) (free_plain (by decide) (by decide)) (cs := [tk T.«LPAR» u0.text, c1, tk T.«RPAR» u2.text, tk T.«BANG» u3.text]) (by have : YL [T.«LPAR», N.«value», T.«RPAR», T.«BANG»] [tk T.«LPAR» u0.text, c1, tk T.«RPAR» u2.text, tk T.«BANG» u3.text] (u0 :: (w1 ++ (u2 :: (u3 :: ([]))))) n := (.tok k0 (by decide) (.nt (by simpa only [List.append_assoc, List.nil_append, List.append_nil, List.cons_append, nextT_append, nextT_cons, nextT_nil] using h1) (.tok k2 (by decide) (.tok k3 (by decide) .nil)) (fun h h' => by first | exact absurd h (by decide) | exact absurd h' (by decide)))); simpa only [List.append_assoc, List.nil_append, List.append_nil, List.cons_append, nextT_append, nextT_cons, nextT_nil] using this) (by simp only [keepKids', List.flatMap_cons, List.flatMap_nil, List.replicate_zero, List.replicate_succ, List.getElem?_cons_zero, List.getElem?_cons_succ, Bool.false_eq_true, if_true, if_false, List.append_nil, List.nil_append, List.cons_append, List.append_assoc, kidsOf_nd] <;> rfl) hm

theorem y_61 {n : Nat} {u0 : Tok} {c1 : Tree} {w1 : List Tok} {u2 : Tok} {u3 : Tok} {u4 : Tok} (k0 : u0.type = T.«LBRACE») (h1 : Y N.«import_alias» c1 w1 u2.type) (k2 : u2.type = T.«RBRACE») (k3 : u3.type = T.«FROM») (k4 : u4.type = T.«QUOTED_INTERPOLATION») :
    Y N.«_import_statement» (nd "_import_statement" (c1 :: [tk T.«QUOTED_INTERPOLATION» u4.text])) (u0 :: (w1 ++ (u2 :: (u3 :: [u4])))) n :=
  Y.node ⟨N.«_import_statement», [T.«LBRACE», N.«import_alias», T.«RBRACE», T.«FROM», T.«QUOTED_INTERPOLATION»], "_import_statement", false, [(1, false, 0), (4, false, 0)], 0⟩ (by decide +kernel) rfl (by decide) (free_plain (by decide) (by decide)) (cs := [tk T.«LBRACE» u0.text, c1, tk T.«RBRACE» u2.text, tk T.«FROM» u3.text, tk T.«QUOTED_INTERPOLATION» u4.text]) (by have : YL [T.«LBRACE», N.«import_alias», T.«RBRACE», T.«FROM», T.«QUOTED_INTERPOLATION»] [tk T.«LBRACE» u0.text, c1, tk T.«RBRACE» u2.text, tk T.«FROM» u3.text, tk T.«QUOTED_INTERPOLATION» u4.text] (u0 :: (w1 ++ (u2 :: (u3 :: (u4 :: ([])))))) n := (.tok k0 (by decide) (.nt (by simpa only [List.append_assoc, List.nil_append, List.append_nil, List.cons_append, nextT_append, nextT_cons, nextT_nil] using h1) (.tok k2 (by decide) (.tok k3 (by decide) (.tok k4 (by decide) .nil))) (fun h h' => by first | exact absurd h (by decide) | exact absurd h' (by decide)))); simpa only [List.append_assoc, List.nil_append, List.append_nil, List.cons_append, nextT_append, nextT_cons, nextT_nil] using this) (by simp only [keepKids', List.flatMap_cons, List.flatMap_nil, List.replicate_zero, List.replicate_succ, List.getElem?_cons_zero, List.getElem?_cons_succ, Bool.false_eq_true, if_true, if_false, List.append_nil, List.nil_append, List.cons_append, List.append_assoc, kidsOf_nd] <;> rfl)

theorem y_64 {n : Nat} {u0 : Tok} {u1 : Tok} {u2 : Tok} {c3 : Tree} {w3 : List Tok} {t4 : List Tree} {w4 : List Tok} {u5 : Tok} {c6 : Tree} {w6 : List Tok} {u7 : Tok} {c8 : Tree} {w8 : List Tok} (k0 : u0.type = T.«STRING») (k1 : u1.type = T.«LPAR») (k2 : u2.type = T.«STRING») (h3 : Y N.«data_type» c3 w3 (nextT w4 u5.type)) (h4 : Y N.«___func_statement_star_2» (nd "___func_statement_star_2" t4) w4 u5.type) (k5 : u5.type = T.«RPAR») (h6 : Y N.«data_type» c6 w6 u7.type) (k7 : u7.type = T.«__ANON_0») (h8 : Y N.«value_brackets» c8 w8 n) (hn : NoInfix n) :
    Y N.«_func_statement» (nd "_func_statement" (tk T.«STRING» u0.text :: (tk T.«STRING» u2.text :: (c3 :: (t4 ++ (c6 :: [c8])))))) (u0 :: (u1 :: (u2 :: (w3 ++ (w4 ++ (u5 :: (w6 ++ (u7 :: w8)))))))) n :=
  Y.node ⟨N.«_func_statement», [T.«STRING», T.«LPAR», T.«STRING», N.«data_type», N.«___func_statement_star_2», T.«RPAR», N.«data_type», T.«__ANON_0», N.«value_brackets»], "_func_statement", false, [(0, false, 0), (2, false, 0), (3, false, 0), (4, true, 0), (6, false, 0), (8, false, 0)], 0⟩ (by decide +kernel) rfl (by decide) (free_infix (by decide) hn) (cs := [tk T.«STRING» u0.text, tk T.«LPAR» u1.text, tk T.«STRING» u2.text, c3, nd "___func_statement_star_2" t4, tk T.«RPAR» u5.text, c6, tk T.«__ANON_0» u7.text, c8]) (by have : YL [T.«STRING», T.«LPAR», T.«STRING», N.«data_type», N.«___func_statement_star_2», T.«RPAR», N.«data_type», T.«__ANON_0», N.«value_brackets»] [tk T.«STRING» u0.text, tk T.«LPAR» u1.text, tk T.«STRING» u2.text, c3, nd "___func_statement_star_2" t4, tk T.«RPAR» u5.text, c6, tk T.«__ANON_0» u7.text, c8] (u0 :: (u1 :: (u2 :: (w3 ++ (w4 ++ (u5 :: (w6 ++ (u7 :: (w8 ++ ([])))))))))) n := (.tok k0 (by decide) (.tok k1 (by decide) (.tok k2 (by decide) (.nt (by simpa only [List.append_assoc, List.nil_append, List.append_nil, List.cons_append, nextT_append, nextT_cons, nextT_nil] using h3) (.nt (by simpa only [List.append_assoc, List.nil_append, List.append_nil, List.cons_append, nextT_append, nextT_cons, nextT_nil] using h4) (.tok k5 (by decide) (.nt (by simpa only [List.append_assoc, List.nil_append, List.append_nil, List.cons_append, nextT_append, nextT_cons, nextT_nil] using h6) (.tok k7 (by decide) (.nt (by simpa only [List.append_assoc, List.nil_append, List.append_nil, List.cons_append, nextT_append, nextT_cons, nextT_nil] using h8) .nil (fun h h' => by first | exact absurd h (by decide) | exact absurd h' (by decide)))) (fun h h' => by first | exact absurd h (by decide) | exact absurd h' (by decide)))) (fun h h' => by first | exact absurd h (by decide) | exact absurd h' (by decide))) (fun h h' => by first | exact absurd h (by decide) | exact absurd h' (by decide)))))); simpa only [List.append_assoc, List.nil_append, List.append_nil, List.cons_append, nextT_append, nextT_cons, nextT_nil] using this) (by simp only [keepKids', List.flatMap_cons, List.flatMap_nil, List.replicate_zero, List.replicate_succ, List.getElem?_cons_zero, List.getElem?_cons_succ, Bool.false_eq_true, if_true, if_false, List.append_nil, List.nil_append, List.cons_append, List.append_assoc, kidsOf_nd] <;> rfl)

theorem y_67 {n : Nat} {c0 : Tree} {w0 : List Tok} (h0 : Y N.«value_brackets» c0 w0 n) (hn : NoInfix n) (hm : isMeta c0 = false) :
    Y N.«var_value» (c0) w0 n :=
  Y.ex ⟨N.«var_value», [N.«value_brackets»], "var_value", true, [(0, false, 0)], 0⟩ (by decide +kernel) rfl (by decide) (free_infix (by decide) hn) (cs := [c0]) (by have : YL [N.«value_brackets»] [c0] (w0 ++ ([])) n := (.nt (by simpa only [List.append_assoc, List.nil_append, List.append_nil, List.cons_append, nextT_append, nextT_cons, nextT_nil] using h0) .nil (fun h h' => by first | exact absurd h (by decide) | exact absurd h' (by decide))); simpa only [List.append_assoc, List.nil_append, List.append_nil, List.cons_append, nextT_append, nextT_cons, nextT_nil] using this) (by simp only [keepKids', List.flatMap_cons, List.flatMap_nil, List.replicate_zero, List.replicate_succ, List.getElem?_cons_zero, List.getElem?_cons_succ, Bool.false_eq_true, if_true, if_false, List.append_nil, List.nil_append, List.cons_append, List.append_assoc, kidsOf_nd] <;> rfl) hm

theorem y_70 {n : Nat} {c0 : Tree} {w0 : List Tok} (h0 : Y N.«value_brackets» c0 w0 n) (hn : NoInfix n) (hm : isMeta c0 = false) :
    Y N.«output_value» (c0) w0 n :=
  Y.ex ⟨N.«output_value», [N.«value_brackets»], "output_value", true, [(0, false, 0)], 0⟩ (by decide +kernel) rfl (by decide) (free_infix (by decide) hn) (cs := [c0]) (by have : YL [N.«value_brackets»] [c0] (w0 ++ ([])) n := (.nt (by simpa only [List.append_assoc, List.nil_append, List.append_nil, List.cons_append, nextT_append, nextT_cons, nextT_nil] using h0) .nil (fun h h' => by first | exact absurd h (by decide) | exact absurd h' (by decide))); simpa only [List.append_assoc, List.nil_append, List.append_nil, List.cons_append, nextT_append, nextT_cons, nextT_nil] using this) (by simp only [keepKids', List.flatMap_cons, List.flatMap_nil, List.replicate_zero, List.replicate_succ, List.getElem?_cons_zero, List.getElem?_cons_succ, Bool.false_eq_true, if_true, if_false, List.append_nil, List.nil_append, List.cons_append, List.append_assoc, kidsOf_nd] <;> rfl) hm

theorem y_73 {n : Nat} {c0 : Tree} {w0 : List Tok} (h0 : Y N.«loop» c0 w0 n) (hm : isMeta c0 = false) :
    Y N.«resource_value» (c0) w0 n :=
  Y.ex ⟨N.«resource_value», [N.«loop»], "resource_value", true, [(0, false, 0)], 0⟩ (by decide +kernel) rfl (by decide) (free_plain (by decide) (by decide)) (cs := [c0]) (by have : YL [N.«loop»] [c0] (w0 ++ ([])) n := (.nt (by simpa only [List.append_assoc, List.nil_append, List.append_nil, List.cons_append, nextT_append, nextT_cons, nextT_nil] using h0) .nil (fun h h' => by first | exact absurd h (by decide) | exact absurd h' (by decide))); simpa only [List.append_assoc, List.nil_append, List.append_nil, List.cons_append, nextT_append, nextT_cons, nextT_nil] using this) (by simp only [keepKids', List.flatMap_cons, List.flatMap_nil, List.replicate_zero, List.replicate_succ, List.getElem?_cons_zero, List.getElem?_cons_succ, Bool.false_eq_true, if_true, if_false, List.append_nil, List.nil_append, List.cons_append, List.append_assoc, kidsOf_nd] <;> rfl) hm

theorem y_76 {n : Nat} {c0 : Tree} {w0 : List Tok} (h0 : Y N.«loop» c0 w0 n) (hm : isMeta c0 = false) :
    Y N.«module_value» (c0) w0 n :=
  Y.ex ⟨N.«module_value», [N.«loop»], "module_value", true, [(0, false, 0)], 0⟩ (by decide +kernel) rfl (by decide) (free_plain (by decide) (by decide)) (cs := [c0]) (by have : YL [N.«loop»] [c0] (w0 ++ ([])) n := (.nt (by simpa only [List.append_assoc, List.nil_append, List.append_nil, List.cons_append, nextT_append, nextT_cons, nextT_nil] using h0) .nil (fun h h' => by first | exact absurd h (by decide) | exact absurd h' (by decide))); simpa only [List.append_assoc, List.nil_append, List.append_nil, List.cons_append, nextT_append, nextT_cons, nextT_nil] using this) (by simp only [keepKids', List.flatMap_cons, List.flatMap_nil, List.replicate_zero, List.replicate_succ, List.getElem?_cons_zero, List.getElem?_cons_succ, Bool.false_eq_true, if_true, if_false, List.append_nil, List.nil_append, List.cons_append, List.append_assoc, kidsOf_nd] <;> rfl) hm

theorem y_79 {n : Nat} {u0 : Tok} {u1 : Tok} {u2 : Tok} {u3 : Tok} {u4 : Tok} {c5 : Tree} {w5 : List Tok} {t6 : List Tree} {w6 : List Tok} (k0 : u0.type = T.«RESOURCE») (k1 : u1.type = T.«STRING») (k2 : u2.type = T.«QUOTED_INTERPOLATION») (k3 : u3.type = T.«EXISTING») (k4 : u4.type = T.«EQUAL») (h5 : Y N.«loop» c5 w5 (nextT w6 n)) (h6 : Y N.«__child_resource_plus_3» (nd "__child_resource_plus_3" t6) w6 n) (hn : n ≠ T._CPP_COMMENT_NL) {l : Lines} (hl : LinesOf l (u0 :: (u1 :: (u2 :: (u3 :: (u4 :: (w5 ++ w6))))))) :
    Y N.«child_resource» (ndl "child_resource" (tk T.«STRING» u1.text :: (tk T.«QUOTED_INTERPOLATION» u2.text :: (tk T.«EXISTING» u3.text :: (c5 :: t6)))) l) (u0 :: (u1 :: (u2 :: (u3 :: (u4 :: (w5 ++ w6)))))) n :=
  Y.nodeL ⟨N.«child_resource», [T.«RESOURCE», T.«STRING», T.«QUOTED_INTERPOLATION», T.«EXISTING», T.«EQUAL», N.«loop», N.«__child_resource_plus_3»], "child_resource", false, [(1, false, 0), (2, false, 0), (3, false, 0), (5, false, 0), (6, true, 0)], 0⟩ (by decide +kernel) rfl (by decide) (by unfold badNode badReduce; rw [beq_false hn]; rfl) hl (cs := [tk T.«RESOURCE» u0.text, tk T.«STRING» u1.text, tk T.«QUOTED_INTERPOLATION» u2.text, tk T.«EXISTING» u3.text, tk T.«EQUAL» u4.text, c5, nd "__child_resource_plus_3" t6]) (by have : YL [T.«RESOURCE», T.«STRING», T.«QUOTED_INTERPOLATION», T.«EXISTING», T.«EQUAL», N.«loop», N.«__child_resource_plus_3»] [tk T.«RESOURCE» u0.text, tk T.«STRING» u1.text, tk T.«QUOTED_INTERPOLATION» u2.text, tk T.«EXISTING» u3.text, tk T.«EQUAL» u4.text, c5, nd "__child_resource_plus_3" t6] (u0 :: (u1 :: (u2 :: (u3 :: (u4 :: (w5 ++ (w6 ++ ([])))))))) n := (.tok k0 (by decide) (.tok k1 (by decide) (.tok k2 (by decide) (.tok k3 (by decide) (.tok k4 (by decide) (.nt (by simpa only [List.append_assoc, List.nil_append, List.append_nil, List.cons_append, nextT_append, nextT_cons, nextT_nil] using h5) (.nt (by simpa only [List.append_assoc, List.nil_append, List.append_nil, List.cons_append, nextT_append, nextT_cons, nextT_nil] using h6) .nil (fun h h' => by first | exact absurd h (by decide) | exact absurd h' (by decide))) (fun h h' => by first | exact absurd h (by decide) | exact absurd h' (by decide)))))))); simpa only [List.append_assoc, List.nil_append, List.append_nil, List.cons_append, nextT_append, nextT_cons, nextT_nil] using this) (by simp only [keepKids', List.flatMap_cons, List.flatMap_nil, List.replicate_zero, List.replicate_succ, List.getElem?_cons_zero, List.getElem?_cons_succ, Bool.false_eq_true, if_true, if_false, List.append_nil, List.nil_append, List.cons_append, List.append_assoc, kidsOf_nd] <;> rfl)

theorem y_82 {n : Nat} {u0 : Tok} {u1 : Tok} {u2 : Tok} {u3 : Tok} {c4 : Tree} {w4 : List Tok} {t5 : List Tree} {w5 : List Tok} (k0 : u0.type = T.«RESOURCE») (k1 : u1.type = T.«STRING») (k2 : u2.type = T.«QUOTED_INTERPOLATION») (k3 : u3.type = T.«EQUAL») (h4 : Y N.«loop» c4 w4 (nextT w5 n)) (h5 : Y N.«__child_resource_plus_3» (nd "__child_resource_plus_3" t5) w5 n) (hn : n ≠ T._CPP_COMMENT_NL) {l : Lines} (hl : LinesOf l (u0 :: (u1 :: (u2 :: (u3 :: (w4 ++ w5)))))) :
    Y N.«child_resource» (ndl "child_resource" (tk T.«STRING» u1.text :: (tk T.«QUOTED_INTERPOLATION» u2.text :: (Tree.none :: (c4 :: t5)))) l) (u0 :: (u1 :: (u2 :: (u3 :: (w4 ++ w5))))) n :=
  Y.nodeL ⟨N.«child_resource», [T.«RESOURCE», T.«STRING», T.«QUOTED_INTERPOLATION», T.«EQUAL», N.«loop», N.«__child_resource_plus_3»], "child_resource", false, [(1, false, 0), (2, false, 0), (4, false, 1), (5, true, 0)], 0⟩ (by decide +kernel) rfl (by decide) (by unfold badNode badReduce; rw [beq_false hn]; rfl) hl (cs := [tk T.«RESOURCE» u0.text, tk T.«STRING» u1.text, tk T.«QUOTED_INTERPOLATION» u2.text, tk T.«EQUAL» u3.text, c4, nd "__child_resource_plus_3" t5]) (by have : YL [T.«RESOURCE», T.«STRING», T.«QUOTED_INTERPOLATION», T.«EQUAL», N.«loop», N.«__child_resource_plus_3»] [tk T.«RESOURCE» u0.text, tk T.«STRING» u1.text, tk T.«QUOTED_INTERPOLATION» u2.text, tk T.«EQUAL» u3.text, c4, nd "__child_resource_plus_3" t5] (u0 :: (u1 :: (u2 :: (u3 :: (w4 ++ (w5 ++ ([]))))))) n := (.tok k0 (by decide) (.tok k1 (by decide) (.tok k2 (by decide) (.tok k3 (by decide) (.nt (by simpa only [List.append_assoc, List.nil_append, List.append_nil, List.cons_append, nextT_append, nextT_cons, nextT_nil] using h4) (.nt (by simpa only [List.append_assoc, List.nil_append, List.append_nil, List.cons_append, nextT_append, nextT_cons, nextT_nil] using h5) .nil (fun h h' => by first | exact absurd h (by decide) | exact absurd h' (by decide))) (fun h h' => by first | exact absurd h (by decide) | exact absurd h' (by decide))))))); simpa only [List.append_assoc, List.nil_append, List.append_nil, List.cons_append, nextT_append, nextT_cons, nextT_nil] using this) (by simp only [keepKids', List.flatMap_cons, List.flatMap_nil, List.replicate_zero, List.replicate_succ, List.getElem?_cons_zero, List.getElem?_cons_succ, Bool.false_eq_true, if_true, if_false, List.append_nil, List.nil_append, List.cons_append, List.append_assoc, kidsOf_nd] <;> rfl)

theorem y_85 {n : Nat} {c0 : Tree} {w0 : List Tok} (h0 : Y N.«value_brackets» c0 w0 n) (hn : NoInfix n) (hm : isMeta c0 = false) :
    Y N.«type_value» (c0) w0 n :=
  Y.ex ⟨N.«type_value», [N.«value_brackets»], "type_value", true, [(0, false, 0)], 0⟩ (by decide +kernel) rfl (by decide) (free_infix (by decide) hn) (cs := [c0]) (by have : YL [N.«value_brackets»] [c0] (w0 ++ ([])) n := (.nt (by simpa only [List.append_assoc, List.nil_append, List.append_nil, List.cons_append, nextT_append, nextT_cons, nextT_nil] using h0) .nil (fun h h' => by first | exact absurd h (by decide) | exact absurd h' (by decide))); simpa only [List.append_assoc, List.nil_append, List.append_nil, List.cons_append, nextT_append, nextT_cons, nextT_nil] using this) (by simp only [keepKids', List.flatMap_cons, List.flatMap_nil, List.replicate_zero, List.replicate_succ, List.getElem?_cons_zero, List.getElem?_cons_succ, Bool.false_eq_true, if_true, if_false, List.append_nil, List.nil_append, List.cons_append, List.append_assoc, kidsOf_nd] <;> rfl) hm

theorem y_88 {n : Nat} {u0 : Tok} (k0 : u0.type = T.«STRING») :
    Y N.«base_type» (nd "base_type" [tk T.«STRING» u0.text]) [u0] n :=
  Y.node ⟨N.«base_type», [T.«STRING»], "base_type", false, [(0, false, 0)], 0⟩ (by decide +kernel) rfl (by decide) (free_plain (by decide) (by decide)) (cs := [tk T.«STRING» u0.text]) (by have : YL [T.«STRING»] [tk T.«STRING» u0.text] (u0 :: ([])) n := (.tok k0 (by decide) .nil); simpa only [List.append_assoc, List.nil_append, List.append_nil, List.cons_append, nextT_append, nextT_cons, nextT_nil] using this) (by simp only [keepKids', List.flatMap_cons, List.flatMap_nil, List.replicate_zero, List.replicate_succ, List.getElem?_cons_zero, List.getElem?_cons_succ, Bool.false_eq_true, if_true, if_false, List.append_nil, List.nil_append, List.cons_append, List.append_assoc, kidsOf_nd] <;> rfl)

theorem y_91 {n : Nat} {u0 : Tok} {u1 : Tok} (k0 : u0.type = T.«LSQB») (k1 : u1.type = T.«RSQB») :
    Y N.«array_suffix» (nd "array_suffix" []) (u0 :: [u1]) n :=
  Y.node ⟨N.«array_suffix», [T.«LSQB», T.«RSQB»], "array_suffix", false, [], 0⟩ (by decide +kernel) rfl (by decide) (free_plain (by decide) (by decide)) (cs := [tk T.«LSQB» u0.text, tk T.«RSQB» u1.text]) (by have : YL [T.«LSQB», T.«RSQB»] [tk T.«LSQB» u0.text, tk T.«RSQB» u1.text] (u0 :: (u1 :: ([]))) n := (.tok k0 (by decide) (.tok k1 (by decide) .nil)); simpa only [List.append_assoc, List.nil_append, List.append_nil, List.cons_append, nextT_append, nextT_cons, nextT_nil] using this) (by simp only [keepKids', List.flatMap_cons, List.flatMap_nil, List.replicate_zero, List.replicate_succ, List.getElem?_cons_zero, List.getElem?_cons_succ, Bool.false_eq_true, if_true, if_false, List.append_nil, List.nil_append, List.cons_append, List.append_assoc, kidsOf_nd] <;> rfl)

theorem y_94 {n : Nat} {u0 : Tok} {u1 : Tok} {u2 : Tok} (k0 : u0.type = T.«STRING») (k1 : u1.type = T.«AS») (k2 : u2.type = T.«STRING») :
    Y N.«import_alias» (nd "import_alias" (tk T.«STRING» u0.text :: [tk T.«STRING» u2.text])) (u0 :: (u1 :: [u2])) n :=
  Y.node ⟨N.«import_alias», [T.«STRING», T.«AS», T.«STRING»], "import_alias", false, [(0, false, 0), (2, false, 0)], 0⟩ (by decide +kernel) rfl (by decide) (free_plain (by decide) (by decide)) (cs := [tk T.«STRING» u0.text, tk T.«AS» u1.text, tk T.«STRING» u2.text]) (by have : YL [T.«STRING», T.«AS», T.«STRING»] [tk T.«STRING» u0.text, tk T.«AS» u1.text, tk T.«STRING» u2.text] (u0 :: (u1 :: (u2 :: ([])))) n := (.tok k0 (by decide) (.tok k1 (by decide) (.tok k2 (by decide) .nil))); simpa only [List.append_assoc, List.nil_append, List.append_nil, List.cons_append, nextT_append, nextT_cons, nextT_nil] using this) (by simp only [keepKids', List.flatMap_cons, List.flatMap_nil, List.replicate_zero, List.replicate_succ, List.getElem?_cons_zero, List.getElem?_cons_succ, Bool.false_eq_true, if_true, if_false, List.append_nil, List.nil_append, List.cons_append, List.append_assoc, kidsOf_nd] <;> rfl)

theorem y_97 {n : Nat} {u0 : Tok} (k0 : u0.type = T.«__ANON_1») :
    Y N.«import_alias» (nd "import_alias" (tk T.«__ANON_1» u0.text :: [Tree.none])) [u0] n :=
  Y.node ⟨N.«import_alias», [T.«__ANON_1»], "import_alias", false, [(0, false, 0)], 1⟩ (by decide +kernel) rfl (by decide) (free_plain (by decide) (by decide)) (cs := [tk T.«__ANON_1» u0.text]) (by have : YL [T.«__ANON_1»] [tk T.«__ANON_1» u0.text] (u0 :: ([])) n := (.tok k0 (by decide) .nil); simpa only [List.append_assoc, List.nil_append, List.append_nil, List.cons_append, nextT_append, nextT_cons, nextT_nil] using this) (by simp only [keepKids', List.flatMap_cons, List.flatMap_nil, List.replicate_zero, List.replicate_succ, List.getElem?_cons_zero, List.getElem?_cons_succ, Bool.false_eq_true, if_true, if_false, List.append_nil, List.nil_append, List.cons_append, List.append_assoc, kidsOf_nd] <;> rfl)

theorem y_100 {n : Nat} {u0 : Tok} {u1 : Tok} {u2 : Tok} {c3 : Tree} {w3 : List Tok} {u4 : Tok} {c5 : Tree} {w5 : List Tok} {u6 : Tok} {u7 : Tok} (k0 : u0.type = T.«LSQB») (k1 : u1.type = T.«_CPP_COMMENT_NL») (k2 : u2.type = T.«FOR») (h3 : Y N.«loop_array» c3 w3 u4.type) (k4 : u4.type = T.«COLON») (h5 : Y N.«value_brackets» c5 w5 u6.type) (k6 : u6.type = T.«_CPP_COMMENT_NL») (k7 : u7.type = T.«RSQB») :
    Y N.«loop» (nd "loop" (c3 :: (Tree.none :: [c5]))) (u0 :: (u1 :: (u2 :: (w3 ++ (u4 :: (w5 ++ (u6 :: [u7]))))))) n :=
  Y.node ⟨N.«loop», [T.«LSQB», T.«_CPP_COMMENT_NL», T.«FOR», N.«loop_array», T.«COLON», N.«value_brackets», T.«_CPP_COMMENT_NL», T.«RSQB»], "loop", false, [(3, false, 0), (5, false, 1)], 0⟩ (by decide +kernel) rfl (by decide) (free_plain (by decide) (by decide)) (cs := [tk T.«LSQB» u0.text, tk T.«_CPP_COMMENT_NL» u1.text, tk T.«FOR» u2.text, c3, tk T.«COLON» u4.text, c5, tk T.«_CPP_COMMENT_NL» u6.text, tk T.«RSQB» u7.text]) (by have : YL [T.«LSQB», T.«_CPP_COMMENT_NL», T.«FOR», N.«loop_array», T.«COLON», N.«value_brackets», T.«_CPP_COMMENT_NL», T.«RSQB»] [tk T.«LSQB» u0.text, tk T.«_CPP_COMMENT_NL» u1.text, tk T.«FOR» u2.text, c3, tk T.«COLON» u4.text, c5, tk T.«_CPP_COMMENT_NL» u6.text, tk T.«RSQB» u7.text] (u0 :: (u1 :: (u2 :: (w3 ++ (u4 :: (w5 ++ (u6 :: (u7 :: ([]))))))))) n := (.tok k0 (by decide) (.tok k1 (by decide) (.tok k2 (by decide) (.nt (by simpa only [List.append_assoc, List.nil_append, List.append_nil, List.cons_append, nextT_append, nextT_cons, nextT_nil] using h3) (.tok k4 (by decide) (.nt (by simpa only [List.append_assoc, List.nil_append, List.append_nil, List.cons_append, nextT_append, nextT_cons, nextT_nil] using h5) (.tok k6 (by decide) (.tok k7 (by decide) .nil)) (fun h h' => by first | exact absurd h (by decide) | exact absurd h' (by decide)))) (fun h h' => by first | exact absurd h (by decide) | exact absurd h' (by decide)))))); simpa only [List.append_assoc, List.nil_append, List.append_nil, List.cons_append, nextT_append, nextT_cons, nextT_nil] using this) (by simp only [keepKids', List.flatMap_cons, List.flatMap_nil, List.replicate_zero, List.replicate_succ, List.getElem?_cons_zero, List.getElem?_cons_succ, Bool.false_eq_true, if_true, if_false, List.append_nil, List.nil_append, List.cons_append, List.append_assoc, kidsOf_nd] <;> rfl)

theorem y_103 {n : Nat} {u0 : Tok} {u1 : Tok} {u2 : Tok} {c3 : Tree} {w3 : List Tok} {u4 : Tok} {c5 : Tree} {w5 : List Tok} {c6 : Tree} {w6 : List Tok} {u7 : Tok} (k0 : u0.type = T.«LSQB») (k1 : u1.type = T.«_CPP_COMMENT_NL») (k2 : u2.type = T.«FOR») (h3 : Y N.«loop_array_index» c3 w3 u4.type) (k4 : u4.type = T.«COLON») (h5 : Y N.«value_brackets» c5 w5 (nextT w6 u7.type)) (hg : (nextT w6 u7.type) ≠ T.MINUS ∧ (nextT w6 u7.type) ≠ T.LSQB) (h6 : Y N.«value_brackets» c6 w6 u7.type) (k7 : u7.type = T.«RSQB») :
    Y N.«loop» (nd "loop" (c3 :: (c5 :: [c6]))) (u0 :: (u1 :: (u2 :: (w3 ++ (u4 :: (w5 ++ (w6 ++ [u7]))))))) n :=
  Y.node ⟨N.«loop», [T.«LSQB», T.«_CPP_COMMENT_NL», T.«FOR», N.«loop_array_index», T.«COLON», N.«value_brackets», N.«value_brackets», T.«RSQB»], "loop", false, [(3, false, 0), (5, false, 0), (6, false, 0)], 0⟩ (by decide +kernel) rfl (by decide) (free_plain (by decide) (by decide)) (cs := [tk T.«LSQB» u0.text, tk T.«_CPP_COMMENT_NL» u1.text, tk T.«FOR» u2.text, c3, tk T.«COLON» u4.text, c5, c6, tk T.«RSQB» u7.text]) (by have : YL [T.«LSQB», T.«_CPP_COMMENT_NL», T.«FOR», N.«loop_array_index», T.«COLON», N.«value_brackets», N.«value_brackets», T.«RSQB»] [tk T.«LSQB» u0.text, tk T.«_CPP_COMMENT_NL» u1.text, tk T.«FOR» u2.text, c3, tk T.«COLON» u4.text, c5, c6, tk T.«RSQB» u7.text] (u0 :: (u1 :: (u2 :: (w3 ++ (u4 :: (w5 ++ (w6 ++ (u7 :: ([]))))))))) n := (.tok k0 (by decide) (.tok k1 (by decide) (.tok k2 (by decide) (.nt (by simpa only [List.append_assoc, List.nil_append, List.append_nil, List.cons_append, nextT_append, nextT_cons, nextT_nil] using h3) (.tok k4 (by decide) (.nt (by simpa only [List.append_assoc, List.nil_append, List.append_nil, List.cons_append, nextT_append, nextT_cons, nextT_nil] using h5) (.nt (by simpa only [List.append_assoc, List.nil_append, List.append_nil, List.cons_append, nextT_append, nextT_cons, nextT_nil] using h6) (.tok k7 (by decide) .nil) (fun h h' => by first | exact absurd h (by decide) | exact absurd h' (by decide))) (fun _ _ => by simpa only [List.append_assoc, List.nil_append, List.append_nil, List.cons_append, nextT_append, nextT_cons, nextT_nil] using hg))) (fun h h' => by first | exact absurd h (by decide) | exact absurd h' (by decide)))))); simpa only [List.append_assoc, List.nil_append, List.append_nil, List.cons_append, nextT_append, nextT_cons, nextT_nil] using this) (by simp only [keepKids', List.flatMap_cons, List.flatMap_nil, List.replicate_zero, List.replicate_succ, List.getElem?_cons_zero, List.getElem?_cons_succ, Bool.false_eq_true, if_true, if_false, List.append_nil, List.nil_append, List.cons_append, List.append_assoc, kidsOf_nd] <;> rfl)

theorem y_106 {n : Nat} {u0 : Tok} {u1 : Tok} {u2 : Tok} {c3 : Tree} {w3 : List Tok} {u4 : Tok} {c5 : Tree} {w5 : List Tok} {c6 : Tree} {w6 : List Tok} {u7 : Tok} {u8 : Tok} (k0 : u0.type = T.«LSQB») (k1 : u1.type = T.«_CPP_COMMENT_NL») (k2 : u2.type = T.«FOR») (h3 : Y N.«loop_object» c3 w3 u4.type) (k4 : u4.type = T.«COLON») (h5 : Y N.«value_brackets» c5 w5 (nextT w6 u7.type)) (hg : (nextT w6 u7.type) ≠ T.MINUS ∧ (nextT w6 u7.type) ≠ T.LSQB) (h6 : Y N.«value_brackets» c6 w6 u7.type) (k7 : u7.type = T.«_CPP_COMMENT_NL») (k8 : u8.type = T.«RSQB») :
    Y N.«loop» (nd "loop" (c3 :: (c5 :: [c6]))) (u0 :: (u1 :: (u2 :: (w3 ++ (u4 :: (w5 ++ (w6 ++ (u7 :: [u8])))))))) n :=
  Y.node ⟨N.«loop», [T.«LSQB», T.«_CPP_COMMENT_NL», T.«FOR», N.«loop_object», T.«COLON», N.«value_brackets», N.«value_brackets», T.«_CPP_COMMENT_NL», T.«RSQB»], "loop", false, [(3, false, 0), (5, false, 0), (6, false, 0)], 0⟩ (by decide +kernel) rfl (by decide) (free_plain (by decide) (by decide)) (cs := [tk T.«LSQB» u0.text, tk T.«_CPP_COMMENT_NL» u1.text, tk T.«FOR» u2.text, c3, tk T.«COLON» u4.text, c5, c6, tk T.«_CPP_COMMENT_NL» u7.text, tk T.«RSQB» u8.text]) (by have : YL [T.«LSQB», T.«_CPP_COMMENT_NL», T.«FOR», N.«loop_object», T.«COLON», N.«value_brackets», N.«value_brackets», T.«_CPP_COMMENT_NL», T.«RSQB»] [tk T.«LSQB» u0.text, tk T.«_CPP_COMMENT_NL» u1.text, tk T.«FOR» u2.text, c3, tk T.«COLON» u4.text, c5, c6, tk T.«_CPP_COMMENT_NL» u7.text, tk T.«RSQB» u8.text] (u0 :: (u1 :: (u2 :: (w3 ++ (u4 :: (w5 ++ (w6 ++ (u7 :: (u8 :: ([])))))))))) n := (.tok k0 (by decide) (.tok k1 (by decide) (.tok k2 (by decide) (.nt (by simpa only [List.append_assoc, List.nil_append, List.append_nil, List.cons_append, nextT_append, nextT_cons, nextT_nil] using h3) (.tok k4 (by decide) (.nt (by simpa only [List.append_assoc, List.nil_append, List.append_nil, List.cons_append, nextT_append, nextT_cons, nextT_nil] using h5) (.nt (by simpa only [List.append_assoc, List.nil_append, List.append_nil, List.cons_append, nextT_append, nextT_cons, nextT_nil] using h6) (.tok k7 (by decide) (.tok k8 (by decide) .nil)) (fun h h' => by first | exact absurd h (by decide) | exact absurd h' (by decide))) (fun _ _ => by simpa only [List.append_assoc, List.nil_append, List.append_nil, List.cons_append, nextT_append, nextT_cons, nextT_nil] using hg))) (fun h h' => by first | exact absurd h (by decide) | exact absurd h' (by decide)))))); simpa only [List.append_assoc, List.nil_append, List.append_nil, List.cons_append, nextT_append, nextT_cons, nextT_nil] using this) (by simp only [keepKids', List.flatMap_cons, List.flatMap_nil, List.replicate_zero, List.replicate_succ, List.getElem?_cons_zero, List.getElem?_cons_succ, Bool.false_eq_true, if_true, if_false, List.append_nil, List.nil_append, List.cons_append, List.append_assoc, kidsOf_nd] <;> rfl)

theorem y_109 {n : Nat} {u0 : Tok} {u1 : Tok} {u2 : Tok} {c3 : Tree} {w3 : List Tok} {u4 : Tok} {c5 : Tree} {w5 : List Tok} {u6 : Tok} (k0 : u0.type = T.«LSQB») (k1 : u1.type = T.«_CPP_COMMENT_NL») (k2 : u2.type = T.«FOR») (h3 : Y N.«loop_object» c3 w3 u4.type) (k4 : u4.type = T.«COLON») (h5 : Y N.«value_brackets» c5 w5 u6.type) (k6 : u6.type = T.«RSQB») :
    Y N.«loop» (nd "loop" (c3 :: (Tree.none :: [c5]))) (u0 :: (u1 :: (u2 :: (w3 ++ (u4 :: (w5 ++ [u6])))))) n :=
  Y.node ⟨N.«loop», [T.«LSQB», T.«_CPP_COMMENT_NL», T.«FOR», N.«loop_object», T.«COLON», N.«value_brackets», T.«RSQB»], "loop", false, [(3, false, 0), (5, false, 1)], 0⟩ (by decide +kernel) rfl (by decide) (free_plain (by decide) (by decide)) (cs := [tk T.«LSQB» u0.text, tk T.«_CPP_COMMENT_NL» u1.text, tk T.«FOR» u2.text, c3, tk T.«COLON» u4.text, c5, tk T.«RSQB» u6.text]) (by have : YL [T.«LSQB», T.«_CPP_COMMENT_NL», T.«FOR», N.«loop_object», T.«COLON», N.«value_brackets», T.«RSQB»] [tk T.«LSQB» u0.text, tk T.«_CPP_COMMENT_NL» u1.text, tk T.«FOR» u2.text, c3, tk T.«COLON» u4.text, c5, tk T.«RSQB» u6.text] (u0 :: (u1 :: (u2 :: (w3 ++ (u4 :: (w5 ++ (u6 :: ([])))))))) n := (.tok k0 (by decide) (.tok k1 (by decide) (.tok k2 (by decide) (.nt (by simpa only [List.append_assoc, List.nil_append, List.append_nil, List.cons_append, nextT_append, nextT_cons, nextT_nil] using h3) (.tok k4 (by decide) (.nt (by simpa only [List.append_assoc, List.nil_append, List.append_nil, List.cons_append, nextT_append, nextT_cons, nextT_nil] using h5) (.tok k6 (by decide) .nil) (fun h h' => by first | exact absurd h (by decide) | exact absurd h' (by decide)))) (fun h h' => by first | exact absurd h (by decide) | exact absurd h' (by decide)))))); simpa only [List.append_assoc, List.nil_append, List.append_nil, List.cons_append, nextT_append, nextT_cons, nextT_nil] using this) (by simp only [keepKids', List.flatMap_cons, List.flatMap_nil, List.replicate_zero, List.replicate_succ, List.getElem?_cons_zero, List.getElem?_cons_succ, Bool.false_eq_true, if_true, if_false, List.append_nil, List.nil_append, List.cons_append, List.append_assoc, kidsOf_nd] <;> rfl)

theorem y_112 {n : Nat} {u0 : Tok} {u1 : Tok} {c2 : Tree} {w2 : List Tok} {u3 : Tok} {c4 : Tree} {w4 : List Tok} {u5 : Tok} {u6 : Tok} (k0 : u0.type = T.«LSQB») (k1 : u1.type = T.«FOR») (h2 : Y N.«loop_array» c2 w2 u3.type) (k3 : u3.type = T.«COLON») (h4 : Y N.«value_brackets» c4 w4 u5.type) (k5 : u5.type = T.«_CPP_COMMENT_NL») (k6 : u6.type = T.«RSQB») :
    Y N.«loop» (nd "loop" (c2 :: (Tree.none :: [c4]))) (u0 :: (u1 :: (w2 ++ (u3 :: (w4 ++ (u5 :: [u6])))))) n :=
  Y.node ⟨N.«loop», [T.«LSQB», T.«FOR», N.«loop_array», T.«COLON», N.«value_brackets», T.«_CPP_COMMENT_NL», T.«RSQB»], "loop", false, [(2, false, 0), (4, false, 1)], 0⟩ (by decide +kernel) rfl (by decide) (free_plain (by decide) (by decide)) (cs := [tk T.«LSQB» u0.text, tk T.«FOR» u1.text, c2, tk T.«COLON» u3.text, c4, tk T.«_CPP_COMMENT_NL» u5.text, tk T.«RSQB» u6.text]) (by have : YL [T.«LSQB», T.«FOR», N.«loop_array», T.«COLON», N.«value_brackets», T.«_CPP_COMMENT_NL», T.«RSQB»] [tk T.«LSQB» u0.text, tk T.«FOR» u1.text, c2, tk T.«COLON» u3.text, c4, tk T.«_CPP_COMMENT_NL» u5.text, tk T.«RSQB» u6.text] (u0 :: (u1 :: (w2 ++ (u3 :: (w4 ++ (u5 :: (u6 :: ([])))))))) n := (.tok k0 (by decide) (.tok k1 (by decide) (.nt (by simpa only [List.append_assoc, List.nil_append, List.append_nil, List.cons_append, nextT_append, nextT_cons, nextT_nil] using h2) (.tok k3 (by decide) (.nt (by simpa only [List.append_assoc, List.nil_append, List.append_nil, List.cons_append, nextT_append, nextT_cons, nextT_nil] using h4) (.tok k5 (by decide) (.tok k6 (by decide) .nil)) (fun h h' => by first | exact absurd h (by decide) | exact absurd h' (by decide)))) (fun h h' => by first | exact absurd h (by decide) | exact absurd h' (by decide))))); simpa only [List.append_assoc, List.nil_append, List.append_nil, List.cons_append, nextT_append, nextT_cons, nextT_nil] using this) (by simp only [keepKids', List.flatMap_cons, List.flatMap_nil, List.replicate_zero, List.replicate_succ, List.getElem?_cons_zero, List.getElem?_cons_succ, Bool.false_eq_true, if_true, if_false, List.append_nil, List.nil_append, List.cons_append, List.append_assoc, kidsOf_nd] <;> rfl)

theorem y_115 {n : Nat} {u0 : Tok} {u1 : Tok} {c2 : Tree} {w2 : List Tok} {u3 : Tok} {c4 : Tree} {w4 : List Tok} {c5 : Tree} {w5 : List Tok} {u6 : Tok} (k0 : u0.type = T.«LSQB») (k1 : u1.type = T.«FOR») (h2 : Y N.«loop_array_index» c2 w2 u3.type) (k3 : u3.type = T.«COLON») (h4 : Y N.«value_brackets» c4 w4 (nextT w5 u6.type)) (hg : (nextT w5 u6.type) ≠ T.MINUS ∧ (nextT w5 u6.type) ≠ T.LSQB) (h5 : Y N.«value_brackets» c5 w5 u6.type) (k6 : u6.type = T.«RSQB») :
    Y N.«loop» (nd "loop" (c2 :: (c4 :: [c5]))) (u0 :: (u1 :: (w2 ++ (u3 :: (w4 ++ (w5 ++ [u6])))))) n :=
  Y.node ⟨N.«loop», [T.«LSQB», T.«FOR», N.«loop_array_index», T.«COLON», N.«value_brackets», N.«value_brackets», T.«RSQB»], "loop", false, [(2, false, 0), (4, false, 0), (5, false, 0)], 0⟩ (by decide +kernel) rfl (by decide) (free_plain (by decide) (by decide)) (cs := [tk T.«LSQB» u0.text, tk T.«FOR» u1.text, c2, tk T.«COLON» u3.text, c4, c5, tk T.«RSQB» u6.text]) (by have : YL [T.«LSQB», T.«FOR», N.«loop_array_index», T.«COLON», N.«value_brackets», N.«value_brackets», T.«RSQB»] [tk T.«LSQB» u0.text, tk T.«FOR» u1.text, c2, tk T.«COLON» u3.text, c4, c5, tk T.«RSQB» u6.text] (u0 :: (u1 :: (w2 ++ (u3 :: (w4 ++ (w5 ++ (u6 :: ([])))))))) n := (.tok k0 (by decide) (.tok k1 (by decide) (.nt (by simpa only [List.append_assoc, List.nil_append, List.append_nil, List.cons_append, nextT_append, nextT_cons, nextT_nil] using h2) (.tok k3 (by decide) (.nt (by simpa only [List.append_assoc, List.nil_append, List.append_nil, List.cons_append, nextT_append, nextT_cons, nextT_nil] using h4) (.nt (by simpa only [List.append_assoc, List.nil_append, List.append_nil, List.cons_append, nextT_append, nextT_cons, nextT_nil] using h5) (.tok k6 (by decide) .nil) (fun h h' => by first | exact absurd h (by decide) | exact absurd h' (by decide))) (fun _ _ => by simpa only [List.append_assoc, List.nil_append, List.append_nil, List.cons_append, nextT_append, nextT_cons, nextT_nil] using hg))) (fun h h' => by first | exact absurd h (by decide) | exact absurd h' (by decide))))); simpa only [List.append_assoc, List.nil_append, List.append_nil, List.cons_append, nextT_append, nextT_cons, nextT_nil] using this) (by simp only [keepKids', List.flatMap_cons, List.flatMap_nil, List.replicate_zero, List.replicate_succ, List.getElem?_cons_zero, List.getElem?_cons_succ, Bool.false_eq_true, if_true, if_false, List.append_nil, List.nil_append, List.cons_append, List.append_assoc, kidsOf_nd] <;> rfl)

theorem y_118 {n : Nat} {u0 : Tok} {u1 : Tok} {c2 : Tree} {w2 : List Tok} {u3 : Tok} {c4 : Tree} {w4 : List Tok} {c5 : Tree} {w5 : List Tok} {u6 : Tok} {u7 : Tok} (k0 : u0.type = T.«LSQB») (k1 : u1.type = T.«FOR») (h2 : Y N.«loop_object» c2 w2 u3.type) (k3 : u3.type = T.«COLON») (h4 : Y N.«value_brackets» c4 w4 (nextT w5 u6.type)) (hg : (nextT w5 u6.type) ≠ T.MINUS ∧ (nextT w5 u6.type) ≠ T.LSQB) (h5 : Y N.«value_brackets» c5 w5 u6.type) (k6 : u6.type = T.«_CPP_COMMENT_NL») (k7 : u7.type = T.«RSQB») :
    Y N.«loop» (nd "loop" (c2 :: (c4 :: [c5]))) (u0 :: (u1 :: (w2 ++ (u3 :: (w4 ++ (w5 ++ (u6 :: [u7]))))))) n :=
  Y.node ⟨N.«loop», [T.«LSQB», T.«FOR», N.«loop_object», T.«COLON», N.«value_brackets», N.«value_brackets», T.«_CPP_COMMENT_NL», T.«RSQB»], "loop", false, [(2, false, 0), (4, false, 0), (5, false, 0)], 0⟩ (by decide +kernel) rfl (by decide) (free_plain (by decide) (by decide)) (cs := [tk T.«LSQB» u0.text, tk T.«FOR» u1.text, c2, tk T.«COLON» u3.text, c4, c5, tk T.«_CPP_COMMENT_NL» u6.text, tk T.«RSQB» u7.text]) (by have : YL [T.«LSQB», T.«FOR», N.«loop_object», T.«COLON», N.«value_brackets», N.«value_brackets», T.«_CPP_COMMENT_NL», T.«RSQB»] [tk T.«LSQB» u0.text, tk T.«FOR» u1.text, c2, tk T.«COLON» u3.text, c4, c5, tk T.«_CPP_COMMENT_NL» u6.text, tk T.«RSQB» u7.text] (u0 :: (u1 :: (w2 ++ (u3 :: (w4 ++ (w5 ++ (u6 :: (u7 :: ([]))))))))) n := (.tok k0 (by decide) (.tok k1 (by decide) (.nt (by simpa only [List.append_assoc, List.nil_append, List.append_nil, List.cons_append, nextT_append, nextT_cons, nextT_nil] using h2) (.tok k3 (by decide) (.nt (by simpa only [List.append_assoc, List.nil_append, List.append_nil, List.cons_append, nextT_append, nextT_cons, nextT_nil] using h4) (.nt (by simpa only [List.append_assoc, List.nil_append, List.append_nil, List.cons_append, nextT_append, nextT_cons, nextT_nil] using h5) (.tok k6 (by decide) (.tok k7 (by decide) .nil)) (fun h h' => by first | exact absurd h (by decide) | exact absurd h' (by decide))) (fun _ _ => by simpa only [List.append_assoc, List.nil_append, List.append_nil, List.cons_append, nextT_append, nextT_cons, nextT_nil] using hg))) (fun h h' => by first | exact absurd h (by decide) | exact absurd h' (by decide))))); simpa only [List.append_assoc, List.nil_append, List.append_nil, List.cons_append, nextT_append, nextT_cons, nextT_nil] using this) (by simp only [keepKids', List.flatMap_cons, List.flatMap_nil, List.replicate_zero, List.replicate_succ, List.getElem?_cons_zero, List.getElem?_cons_succ, Bool.false_eq_true, if_true, if_false, List.append_nil, List.nil_append, List.cons_append, List.append_assoc, kidsOf_nd] <;> rfl)

theorem y_121 {n : Nat} {u0 : Tok} {u1 : Tok} {c2 : Tree} {w2 : List Tok} {u3 : Tok} {c4 : Tree} {w4 : List Tok} {u5 : Tok} (k0 : u0.type = T.«LSQB») (k1 : u1.type = T.«FOR») (h2 : Y N.«loop_object» c2 w2 u3.type) (k3 : u3.type = T.«COLON») (h4 : Y N.«value_brackets» c4 w4 u5.type) (k5 : u5.type = T.«RSQB») :
    Y N.«loop» (nd "loop" (c2 :: (Tree.none :: [c4]))) (u0 :: (u1 :: (w2 ++ (u3 :: (w4 ++ [u5]))))) n :=
  Y.node ⟨N.«loop», [T.«LSQB», T.«FOR», N.«loop_object», T.«COLON», N.«value_brackets», T.«RSQB»], "loop", false, [(2, false, 0), (4, false, 1)], 0⟩ (by decide +kernel) rfl (by decide) (free_plain (by decide) (by decide)) (cs := [tk T.«LSQB» u0.text, tk T.«FOR» u1.text, c2, tk T.«COLON» u3.text, c4, tk T.«RSQB» u5.text]) (by have : YL [T.«LSQB», T.«FOR», N.«loop_object», T.«COLON», N.«value_brackets», T.«RSQB»] [tk T.«LSQB» u0.text, tk T.«FOR» u1.text, c2, tk T.«COLON» u3.text, c4, tk T.«RSQB» u5.text] (u0 :: (u1 :: (w2 ++ (u3 :: (w4 ++ (u5 :: ([]))))))) n := (.tok k0 (by decide) (.tok k1 (by decide) (.nt (by simpa only [List.append_assoc, List.nil_append, List.append_nil, List.cons_append, nextT_append, nextT_cons, nextT_nil] using h2) (.tok k3 (by decide) (.nt (by simpa only [List.append_assoc, List.nil_append, List.append_nil, List.cons_append, nextT_append, nextT_cons, nextT_nil] using h4) (.tok k5 (by decide) .nil) (fun h h' => by first | exact absurd h (by decide) | exact absurd h' (by decide)))) (fun h h' => by first | exact absurd h (by decide) | exact absurd h' (by decide))))); simpa only [List.append_assoc, List.nil_append, List.append_nil, List.cons_append, nextT_append, nextT_cons, nextT_nil] using this) (by simp only [keepKids', List.flatMap_cons, List.flatMap_nil, List.replicate_zero, List.replicate_succ, List.getElem?_cons_zero, List.getElem?_cons_succ, Bool.false_eq_true, if_true, if_false, List.append_nil, List.nil_append, List.cons_append, List.append_assoc, kidsOf_nd] <;> rfl)

theorem y_124 {n : Nat} {u0 : Tok} {u1 : Tok} {u2 : Tok} {u3 : Tok} {c4 : Tree} {w4 : List Tok} {u5 : Tok} (k0 : u0.type = T.«STRING») (k1 : u1.type = T.«IN») (k2 : u2.type = T.«ITEMS») (k3 : u3.type = T.«LPAR») (h4 : Y N.«value_brackets» c4 w4 u5.type) (k5 : u5.type = T.«RPAR») :
    Y N.«loop_object» (nd "loop_object" (tk T.«STRING» u0.text :: [c4])) (u0 :: (u1 :: (u2 :: (u3 :: (w4 ++ [u5]))))) n :=
  Y.node ⟨N.«loop_object», [T.«STRING», T.«IN», T.«ITEMS», T.«LPAR», N.«value_brackets», T.«RPAR»], "loop_object", false, [(0, false, 0), (4, false, 0)], 0⟩ (by decide +kernel) rfl (by decide) (free_plain (by decide) (by decide)) (cs := [tk T.«STRING» u0.text, tk T.«IN» u1.text, tk T.«ITEMS» u2.text, tk T.«LPAR» u3.text, c4, tk T.«RPAR» u5.text]) (by have : YL [T.«STRING», T.«IN», T.«ITEMS», T.«LPAR», N.«value_brackets», T.«RPAR»] [tk T.«STRING» u0.text, tk T.«IN» u1.text, tk T.«ITEMS» u2.text, tk T.«LPAR» u3.text, c4, tk T.«RPAR» u5.text] (u0 :: (u1 :: (u2 :: (u3 :: (w4 ++ (u5 :: ([]))))))) n := (.tok k0 (by decide) (.tok k1 (by decide) (.tok k2 (by decide) (.tok k3 (by decide) (.nt (by simpa only [List.append_assoc, List.nil_append, List.append_nil, List.cons_append, nextT_append, nextT_cons, nextT_nil] using h4) (.tok k5 (by decide) .nil) (fun h h' => by first | exact absurd h (by decide) | exact absurd h' (by decide))))))); simpa only [List.append_assoc, List.nil_append, List.append_nil, List.cons_append, nextT_append, nextT_cons, nextT_nil] using this) (by simp only [keepKids', List.flatMap_cons, List.flatMap_nil, List.replicate_zero, List.replicate_succ, List.getElem?_cons_zero, List.getElem?_cons_succ, Bool.false_eq_true, if_true, if_false, List.append_nil, List.nil_append, List.cons_append, List.append_assoc, kidsOf_nd] <;> rfl)

theorem y_127 {n : Nat} {u0 : Tok} (k0 : u0.type = T.«STRING») :
    Y N.«quoted_string» (tk T.«STRING» u0.text) [u0] n :=
  Y.ex ⟨N.«quoted_string», [T.«STRING»], "quoted_string", true, [(0, false, 0)], 0⟩ (by decide +kernel) rfl (by decide) (free_plain (by decide) (by decide)) (cs := [tk T.«STRING» u0.text]) (by have : YL [T.«STRING»] [tk T.«STRING» u0.text] (u0 :: ([])) n := (.tok k0 (by decide) .nil); simpa only [List.append_assoc, List.nil_append, List.append_nil, List.cons_append, nextT_append, nextT_cons, nextT_nil] using this) (by simp only [keepKids', List.flatMap_cons, List.flatMap_nil, List.replicate_zero, List.replicate_succ, List.getElem?_cons_zero, List.getElem?_cons_succ, Bool.false_eq_true, if_true, if_false, List.append_nil, List.nil_append, List.cons_append, List.append_assoc, kidsOf_nd] <;> rfl) rfl

theorem y_130 {n : Nat} {u0 : Tok} {t1 : List Tree} {w1 : List Tok} {t2 : List Tree} {w2 : List Tok} {u3 : Tok} (k0 : u0.type = T.«LSQB») (h1 : Y N.«__child_resource_plus_3» (nd "__child_resource_plus_3" t1) w1 (nextT w2 u3.type)) (h2 : Y N.«__array_star_8» (nd "__array_star_8" t2) w2 u3.type) (k3 : u3.type = T.«RSQB») :
    Y N.«array» (nd "array" (t1 ++ t2)) (u0 :: (w1 ++ (w2 ++ [u3]))) n :=
  Y.node ⟨N.«array», [T.«LSQB», N.«__child_resource_plus_3», N.«__array_star_8», T.«RSQB»], "array", false, [(1, true, 0), (2, true, 0)], 0⟩ (by decide +kernel) rfl (by decide) (free_plain (by decide) (by decide)) (cs := [tk T.«LSQB» u0.text, nd "__child_resource_plus_3" t1, nd "__array_star_8" t2, tk T.«RSQB» u3.text]) (by have : YL [T.«LSQB», N.«__child_resource_plus_3», N.«__array_star_8», T.«RSQB»] [tk T.«LSQB» u0.text, nd "__child_resource_plus_3" t1, nd "__array_star_8" t2, tk T.«RSQB» u3.text] (u0 :: (w1 ++ (w2 ++ (u3 :: ([]))))) n := (.tok k0 (by decide) (.nt (by simpa only [List.append_assoc, List.nil_append, List.append_nil, List.cons_append, nextT_append, nextT_cons, nextT_nil] using h1) (.nt (by simpa only [List.append_assoc, List.nil_append, List.append_nil, List.cons_append, nextT_append, nextT_cons, nextT_nil] using h2) (.tok k3 (by decide) .nil) (fun h h' => by first | exact absurd h (by decide) | exact absurd h' (by decide))) (fun h h' => by first | exact absurd h (by decide) | exact absurd h' (by decide)))); simpa only [List.append_assoc, List.nil_append, List.append_nil, List.cons_append, nextT_append, nextT_cons, nextT_nil] using this) (by simp only [keepKids', List.flatMap_cons, List.flatMap_nil, List.replicate_zero, List.replicate_succ, List.getElem?_cons_zero, List.getElem?_cons_succ, Bool.false_eq_true, if_true, if_false, List.append_nil, List.nil_append, List.cons_append, List.append_assoc, kidsOf_nd] <;> rfl)

theorem y_133 {n : Nat} {u0 : Tok} {u1 : Tok} (k0 : u0.type = T.«LSQB») (k1 : u1.type = T.«RSQB») :
    Y N.«array» (nd "array" []) (u0 :: [u1]) n :=
  Y.node ⟨N.«array», [T.«LSQB», T.«RSQB»], "array", false, [], 0⟩ (by decide +kernel) rfl (by decide) (free_plain (by decide) (by decide)) (cs := [tk T.«LSQB» u0.text, tk T.«RSQB» u1.text]) (by have : YL [T.«LSQB», T.«RSQB»] [tk T.«LSQB» u0.text, tk T.«RSQB» u1.text] (u0 :: (u1 :: ([]))) n := (.tok k0 (by decide) (.tok k1 (by decide) .nil)); simpa only [List.append_assoc, List.nil_append, List.append_nil, List.cons_append, nextT_append, nextT_cons, nextT_nil] using this) (by simp only [keepKids', List.flatMap_cons, List.flatMap_nil, List.replicate_zero, List.replicate_succ, List.getElem?_cons_zero, List.getElem?_cons_succ, Bool.false_eq_true, if_true, if_false, List.append_nil, List.nil_append, List.cons_append, List.append_assoc, kidsOf_nd] <;> rfl)

theorem y_136 {n : Nat} {u0 : Tok} {t1 : List Tree} {w1 : List Tok} {u2 : Tok} (k0 : u0.type = T.«LBRACE») (h1 : Y N.«__object_star_10» (nd "__object_star_10" t1) w1 u2.type) (k2 : u2.type = T.«RBRACE») :
    Y N.«object» (nd "object" t1) (u0 :: (w1 ++ [u2])) n :=
  Y.node ⟨N.«object», [T.«LBRACE», N.«__object_star_10», T.«RBRACE»], "object", false, [(1, true, 0)], 0⟩ (by decide +kernel) rfl (by decide) (free_plain (by decide) (by decide)) (cs := [tk T.«LBRACE» u0.text, nd "__object_star_10" t1, tk T.«RBRACE» u2.text]) (by have : YL [T.«LBRACE», N.«__object_star_10», T.«RBRACE»] [tk T.«LBRACE» u0.text, nd "__object_star_10" t1, tk T.«RBRACE» u2.text] (u0 :: (w1 ++ (u2 :: ([])))) n := (.tok k0 (by decide) (.nt (by simpa only [List.append_assoc, List.nil_append, List.append_nil, List.cons_append, nextT_append, nextT_cons, nextT_nil] using h1) (.tok k2 (by decide) .nil) (fun h h' => by first | exact absurd h (by decide) | exact absurd h' (by decide)))); simpa only [List.append_assoc, List.nil_append, List.append_nil, List.cons_append, nextT_append, nextT_cons, nextT_nil] using this) (by simp only [keepKids', List.flatMap_cons, List.flatMap_nil, List.replicate_zero, List.replicate_succ, List.getElem?_cons_zero, List.getElem?_cons_succ, Bool.false_eq_true, if_true, if_false, List.append_nil, List.nil_append, List.cons_append, List.append_assoc, kidsOf_nd] <;> rfl)

theorem y_139 {n : Nat} {c0 : Tree} {w0 : List Tok} {u1 : Tok} {c2 : Tree} {w2 : List Tok} (h0 : Y N.«key» c0 w0 u1.type) (k1 : u1.type = T.«COLON») (h2 : Y N.«value_brackets» c2 w2 n) (hn : NoInfix n) :
    Y N.«pair» (nd "pair" (c0 :: [c2])) (w0 ++ (u1 :: w2)) n :=
  Y.node ⟨N.«pair», [N.«key», T.«COLON», N.«value_brackets»], "pair", false, [(0, false, 0), (2, false, 0)], 0⟩ (by decide +kernel) rfl (by decide) (free_infix (by decide) hn) (cs := [c0, tk T.«COLON» u1.text, c2]) (by have : YL [N.«key», T.«COLON», N.«value_brackets»] [c0, tk T.«COLON» u1.text, c2] (w0 ++ (u1 :: (w2 ++ ([])))) n := (.nt (by simpa only [List.append_assoc, List.nil_append, List.append_nil, List.cons_append, nextT_append, nextT_cons, nextT_nil] using h0) (.tok k1 (by decide) (.nt (by simpa only [List.append_assoc, List.nil_append, List.append_nil, List.cons_append, nextT_append, nextT_cons, nextT_nil] using h2) .nil (fun h h' => by first | exact absurd h (by decide) | exact absurd h' (by decide)))) (fun h h' => by first | exact absurd h (by decide) | exact absurd h' (by decide))); simpa only [List.append_assoc, List.nil_append, List.append_nil, List.cons_append, nextT_append, nextT_cons, nextT_nil] using this) (by simp only [keepKids', List.flatMap_cons, List.flatMap_nil, List.replicate_zero, List.replicate_succ, List.getElem?_cons_zero, List.getElem?_cons_succ, Bool.false_eq_true, if_true, if_false, List.append_nil, List.nil_append, List.cons_append, List.append_assoc, kidsOf_nd] <;> rfl)

theorem y_142 {n : Nat} {u0 : Tok} (k0 : u0.type = T.«RESOURCE») :
    Y N.«key» (nd "key" [tk T.«RESOURCE» u0.text]) [u0] n :=
  Y.node ⟨N.«key», [T.«RESOURCE»], "key", false, [(0, false, 0)], 0⟩ (by decide +kernel) rfl (by decide) (free_plain (by decide) (by decide)) (cs := [tk T.«RESOURCE» u0.text]) (by have : YL [T.«RESOURCE»] [tk T.«RESOURCE» u0.text] (u0 :: ([])) n := (.tok k0 (by decide) .nil); simpa only [List.append_assoc, List.nil_append, List.append_nil, List.cons_append, nextT_append, nextT_cons, nextT_nil] using this) (by simp only [keepKids', List.flatMap_cons, List.flatMap_nil, List.replicate_zero, List.replicate_succ, List.getElem?_cons_zero, List.getElem?_cons_succ, Bool.false_eq_true, if_true, if_false, List.append_nil, List.nil_append, List.cons_append, List.append_assoc, kidsOf_nd] <;> rfl)

theorem y_145 {n : Nat} {u0 : Tok} {c1 : Tree} {w1 : List Tok} {u2 : Tok} {c3 : Tree} {w3 : List Tok} {t4 : List Tree} {w4 : List Tok} {u5 : Tok} {u6 : Tok} {c7 : Tree} {w7 : List Tok} (k0 : u0.type = T.«LPAR») (h1 : Y N.«value_brackets» c1 w1 u2.type) (k2 : u2.type = T.«COMMA») (h3 : Y N.«value_brackets» c3 w3 (nextT w4 u5.type)) (h4 : Y N.«__array_star_7» (nd "__array_star_7" t4) w4 u5.type) (k5 : u5.type = T.«RPAR») (k6 : u6.type = T.«__ANON_0») (h7 : Y N.«value_brackets» c7 w7 n) (hn : NoInfix n) :
    Y N.«lambda_expression» (nd "lambda_expression" (c1 :: (c3 :: (t4 ++ [c7])))) (u0 :: (w1 ++ (u2 :: (w3 ++ (w4 ++ (u5 :: (u6 :: w7))))))) n :=
  Y.node ⟨N.«lambda_expression», [T.«LPAR», N.«value_brackets», T.«COMMA», N.«value_brackets», N.«__array_star_7», T.«RPAR», T.«__ANON_0», N.«value_brackets»], "lambda_expression", false, [(1, false, 0), (3, false, 0), (4, true, 0), (7, false, 0)], 0⟩ (by decide +kernel) rfl (by decide) (free_infix (by decide) hn) (cs := [tk T.«LPAR» u0.text, c1, tk T.«COMMA» u2.text, c3, nd "__array_star_7" t4, tk T.«RPAR» u5.text, tk T.«__ANON_0» u6.text, c7]) (by have : YL [T.«LPAR», N.«value_brackets», T.«COMMA», N.«value_brackets», N.«__array_star_7», T.«RPAR», T.«__ANON_0», N.«value_brackets»] [tk T.«LPAR» u0.text, c1, tk T.«COMMA» u2.text, c3, nd "__array_star_7" t4, tk T.«RPAR» u5.text, tk T.«__ANON_0» u6.text, c7] (u0 :: (w1 ++ (u2 :: (w3 ++ (w4 ++ (u5 :: (u6 :: (w7 ++ ([]))))))))) n := (.tok k0 (by decide) (.nt (by simpa only [List.append_assoc, List.nil_append, List.append_nil, List.cons_append, nextT_append, nextT_cons, nextT_nil] using h1) (.tok k2 (by decide) (.nt (by simpa only [List.append_assoc, List.nil_append, List.append_nil, List.cons_append, nextT_append, nextT_cons, nextT_nil] using h3) (.nt (by simpa only [List.append_assoc, List.nil_append, List.append_nil, List.cons_append, nextT_append, nextT_cons, nextT_nil] using h4) (.tok k5 (by decide) (.tok k6 (by decide) (.nt (by simpa only [List.append_assoc, List.nil_append, List.append_nil, List.cons_append, nextT_append, nextT_cons, nextT_nil] using h7) .nil (fun h h' => by first | exact absurd h (by decide) | exact absurd h' (by decide))))) (fun h h' => by first | exact absurd h (by decide) | exact absurd h' (by decide))) (fun h h' => by first | exact absurd h (by decide) | exact absurd h' (by decide)))) (fun h h' => by first | exact absurd h (by decide) | exact absurd h' (by decide)))); simpa only [List.append_assoc, List.nil_append, List.append_nil, List.cons_append, nextT_append, nextT_cons, nextT_nil] using this) (by simp only [keepKids', List.flatMap_cons, List.flatMap_nil, List.replicate_zero, List.replicate_succ, List.getElem?_cons_zero, List.getElem?_cons_succ, Bool.false_eq_true, if_true, if_false, List.append_nil, List.nil_append, List.cons_append, List.append_assoc, kidsOf_nd] <;> rfl)

theorem y_148 {n : Nat} {u0 : Tok} {u1 : Tok} {u2 : Tok} {u3 : Tok} {c4 : Tree} {w4 : List Tok} {u5 : Tok} {u6 : Tok} {u7 : Tok} {u8 : Tok} (k0 : u0.type = T.«AT») (k1 : u1.type = T.«__ANON_2») (k2 : u2.type = T.«LPAR») (k3 : u3.type = T.«_CPP_COMMENT_NL») (h4 : Y N.«value_brackets» c4 w4 u5.type) (k5 : u5.type = T.«_CPP_COMMENT_NL») (k6 : u6.type = T.«RPAR») (k7 : u7.type = T.«_CPP_COMMENT_NL») (k8 : u8.type = T.«_CPP_COMMENT_NL») :
    Y N.«decorator» (nd "decorator" (tk T.«__ANON_2» u1.text :: [c4])) (u0 :: (u1 :: (u2 :: (u3 :: (w4 ++ (u5 :: (u6 :: (u7 :: [u8])))))))) n :=
  Y.node ⟨N.«decorator», [T.«AT», T.«__ANON_2», T.«LPAR», T.«_CPP_COMMENT_NL», N.«value_brackets», T.«_CPP_COMMENT_NL», T.«RPAR», T.«_CPP_COMMENT_NL», T.«_CPP_COMMENT_NL»], "decorator", false, [(1, false, 0), (4, false, 0)], 0⟩ (by decide +kernel) rfl (by decide) (free_plain (by decide) (by decide)) (cs := [tk T.«AT» u0.text, tk T.«__ANON_2» u1.text, tk T.«LPAR» u2.text, tk T.«_CPP_COMMENT_NL» u3.text, c4, tk T.«_CPP_COMMENT_NL» u5.text, tk T.«RPAR» u6.text, tk T.«_CPP_COMMENT_NL» u7.text, tk T.«_CPP_COMMENT_NL» u8.text]) (by have : YL [T.«AT», T.«__ANON_2», T.«LPAR», T.«_CPP_COMMENT_NL», N.«value_brackets», T.«_CPP_COMMENT_NL», T.«RPAR», T.«_CPP_COMMENT_NL», T.«_CPP_COMMENT_NL»] [tk T.«AT» u0.text, tk T.«__ANON_2» u1.text, tk T.«LPAR» u2.text, tk T.«_CPP_COMMENT_NL» u3.text, c4, tk T.«_CPP_COMMENT_NL» u5.text, tk T.«RPAR» u6.text, tk T.«_CPP_COMMENT_NL» u7.text, tk T.«_CPP_COMMENT_NL» u8.text] (u0 :: (u1 :: (u2 :: (u3 :: (w4 ++ (u5 :: (u6 :: (u7 :: (u8 :: ([])))))))))) n := (.tok k0 (by decide) (.tok k1 (by decide) (.tok k2 (by decide) (.tok k3 (by decide) (.nt (by simpa only [List.append_assoc, List.nil_append, List.append_nil, List.cons_append, nextT_append, nextT_cons, nextT_nil] using h4) (.tok k5 (by decide) (.tok k6 (by decide) (.tok k7 (by decide) (.tok k8 (by decide) .nil)))) (fun h h' => by first | exact absurd h (by decide) | exact absurd h' (by decide))))))); simpa only [List.append_assoc, List.nil_append, List.append_nil, List.cons_append, nextT_append, nextT_cons, nextT_nil] using this) (by simp only [keepKids', List.flatMap_cons, List.flatMap_nil, List.replicate_zero, List.replicate_succ, List.getElem?_cons_zero, List.getElem?_cons_succ, Bool.false_eq_true, if_true, if_false, List.append_nil, List.nil_append, List.cons_append, List.append_assoc, kidsOf_nd] <;> rfl)

theorem y_151 {n : Nat} {u0 : Tok} {u1 : Tok} {u2 : Tok} {u3 : Tok} {c4 : Tree} {w4 : List Tok} {u5 : Tok} {u6 : Tok} {u7 : Tok} {u8 : Tok} {u9 : Tok} {u10 : Tok} {u11 : Tok} (k0 : u0.type = T.«AT») (k1 : u1.type = T.«__ANON_2») (k2 : u2.type = T.«LPAR») (k3 : u3.type = T.«_CPP_COMMENT_NL») (h4 : Y N.«value_brackets» c4 w4 u5.type) (k5 : u5.type = T.«_CPP_COMMENT_NL») (k6 : u6.type = T.«RPAR») (k7 : u7.type = T.«_CPP_COMMENT_NL») (k8 : u8.type = T.«_CPP_COMMENT_NL») (k9 : u9.type = T.«_CPP_COMMENT_NL») (k10 : u10.type = T.«_CPP_COMMENT_NL») (k11 : u11.type = T.«_CPP_COMMENT_NL») :
    Y N.«decorator» (nd "decorator" (tk T.«__ANON_2» u1.text :: [c4])) (u0 :: (u1 :: (u2 :: (u3 :: (w4 ++ (u5 :: (u6 :: (u7 :: (u8 :: (u9 :: (u10 :: [u11]))))))))))) n :=
  Y.node ⟨N.«decorator», [T.«AT», T.«__ANON_2», T.«LPAR», T.«_CPP_COMMENT_NL», N.«value_brackets», T.«_CPP_COMMENT_NL», T.«RPAR», T.«_CPP_COMMENT_NL», T.«_CPP_COMMENT_NL», T.«_CPP_COMMENT_NL», T.«_CPP_COMMENT_NL», T.«_CPP_COMMENT_NL»], "decorator", false, [(1, false, 0), (4, false, 0)], 0⟩ (by decide +kernel) rfl (by decide) (free_plain (by decide) (by decide)) (cs := [tk T.«AT» u0.text, tk T.«__ANON_2» u1.text, tk T.«LPAR» u2.text, tk T.«_CPP_COMMENT_NL» u3.text, c4, tk T.«_CPP_COMMENT_NL» u5.text, tk T.«RPAR» u6.text, tk T.«_CPP_COMMENT_NL» u7.text, tk T.«_CPP_COMMENT_NL» u8.text, tk T.«_CPP_COMMENT_NL» u9.text, tk T.«_CPP_COMMENT_NL» u10.text, tk T.«_CPP_COMMENT_NL» u11.text]) (by have : YL [T.«AT», T.«__ANON_2», T.«LPAR», T.«_CPP_COMMENT_NL», N.«value_brackets», T.«_CPP_COMMENT_NL», T.«RPAR», T.«_CPP_COMMENT_NL», T.«_CPP_COMMENT_NL», T.«_CPP_COMMENT_NL», T.«_CPP_COMMENT_NL», T.«_CPP_COMMENT_NL»] [tk T.«AT» u0.text, tk T.«__ANON_2» u1.text, tk T.«LPAR» u2.text, tk T.«_CPP_COMMENT_NL» u3.text, c4, tk T.«_CPP_COMMENT_NL» u5.text, tk T.«RPAR» u6.text, tk T.«_CPP_COMMENT_NL» u7.text, tk T.«_CPP_COMMENT_NL» u8.text, tk T.«_CPP_COMMENT_NL» u9.text, tk T.«_CPP_COMMENT_NL» u10.text, tk T.«_CPP_COMMENT_NL» u11.text] (u0 :: (u1 :: (u2 :: (u3 :: (w4 ++ (u5 :: (u6 :: (u7 :: (u8 :: (u9 :: (u10 :: (u11 :: ([]))))))))))))) n := (.tok k0 (by decide) (.tok k1 (by decide) (.tok k2 (by decide) (.tok k3 (by decide) (.nt (by simpa only [List.append_assoc, List.nil_append, List.append_nil, List.cons_append, nextT_append, nextT_cons, nextT_nil] using h4) (.tok k5 (by decide) (.tok k6 (by decide) (.tok k7 (by decide) (.tok k8 (by decide) (.tok k9 (by decide) (.tok k10 (by decide) (.tok k11 (by decide) .nil))))))) (fun h h' => by first | exact absurd h (by decide) | exact absurd h' (by decide))))))); simpa only [List.append_assoc, List.nil_append, List.append_nil, List.cons_append, nextT_append, nextT_cons, nextT_nil] using this) (by simp only [keepKids', List.flatMap_cons, List.flatMap_nil, List.replicate_zero, List.replicate_succ, List.getElem?_cons_zero, List.getElem?_cons_succ, Bool.false_eq_true, if_true, if_false, List.append_nil, List.nil_append, List.cons_append, List.append_assoc, kidsOf_nd] <;> rfl)

theorem y_154 {n : Nat} {u0 : Tok} {u1 : Tok} {u2 : Tok} {u3 : Tok} {c4 : Tree} {w4 : List Tok} {u5 : Tok} {u6 : Tok} {u7 : Tok} {u8 : Tok} {u9 : Tok} {u10 : Tok} {u11 : Tok} {u12 : Tok} {u13 : Tok} {u14 : Tok} (k0 : u0.type = T.«AT») (k1 : u1.type = T.«__ANON_2») (k2 : u2.type = T.«LPAR») (k3 : u3.type = T.«_CPP_COMMENT_NL») (h4 : Y N.«value_brackets» c4 w4 u5.type) (k5 : u5.type = T.«_CPP_COMMENT_NL») (k6 : u6.type = T.«RPAR») (k7 : u7.type = T.«_CPP_COMMENT_NL») (k8 : u8.type = T.«_CPP_COMMENT_NL») (k9 : u9.type = T.«_CPP_COMMENT_NL») (k10 : u10.type = T.«_CPP_COMMENT_NL») (k11 : u11.type = T.«_CPP_COMMENT_NL») (k12 : u12.type = T.«_CPP_COMMENT_NL») (k13 : u13.type = T.«_CPP_COMMENT_NL») (k14 : u14.type = T.«_CPP_COMMENT_NL») :
    Y N.«decorator» (nd "decorator" (tk T.«__ANON_2» u1.text :: [c4])) (u0 :: (u1 :: (u2 :: (u3 :: (w4 ++ (u5 :: (u6 :: (u7 :: (u8 :: (u9 :: (u10 :: (u11 :: (u12 :: (u13 :: [u14])))))))))))))) n :=
  Y.node ⟨N.«decorator», [T.«AT», T.«__ANON_2», T.«LPAR», T.«_CPP_COMMENT_NL», N.«value_brackets», T.«_CPP_COMMENT_NL», T.«RPAR», T.«_CPP_COMMENT_NL», T.«_CPP_COMMENT_NL», T.«_CPP_COMMENT_NL», T.«_CPP_COMMENT_NL», T.«_CPP_COMMENT_NL», T.«_CPP_COMMENT_NL», T.«_CPP_COMMENT_NL», T.«_CPP_COMMENT_NL»], "decorator", false, [(1, false, 0), (4, false, 0)], 0⟩ (by decide +kernel) rfl (by decide) (free_plain (by decide) (by decide)) (cs := [tk T.«AT» u0.text, tk T.«__ANON_2» u1.text, tk T.«LPAR» u2.text, tk T.«_CPP_COMMENT_NL» u3.text, c4, tk T.«_CPP_COMMENT_NL» u5.text, tk T.«RPAR» u6.text, tk T.«_CPP_COMMENT_NL» u7.text, tk T.«_CPP_COMMENT_NL» u8.text, tk T.«_CPP_COMMENT_NL» u9.text, tk T.«_CPP_COMMENT_NL» u10.text, tk T.«_CPP_COMMENT_NL» u11.text, tk T.«_CPP_COMMENT_NL» u12.text, tk T.«_CPP_COMMENT_NL» u13.text, tk T.«_CPP_COMMENT_NL» u14.text]) (by have : YL [T.«AT», T.«__ANON_2», T.«LPAR», T.«_CPP_COMMENT_NL», N.«value_brackets», T.«_CPP_COMMENT_NL», T.«RPAR», T.«_CPP_COMMENT_NL», T.«_CPP_COMMENT_NL», T.«_CPP_COMMENT_NL», T.«_CPP_COMMENT_NL», T.«_CPP_COMMENT_NL», T.«_CPP_COMMENT_NL», T.«_CPP_COMMENT_NL», T.«_CPP_COMMENT_NL»] [tk T.«AT» u0.text, tk T.«__ANON_2» u1.text, tk T.«LPAR» u2.text, tk T.«_CPP_COMMENT_NL» u3.text, c4, tk T.«_CPP_COMMENT_NL» u5.text, tk T.«RPAR» u6.text, tk T.«_CPP_COMMENT_NL» u7.text, tk T.«_CPP_COMMENT_NL» u8.text, tk T.«_CPP_COMMENT_NL» u9.text, tk T.«_CPP_COMMENT_NL» u10.text, tk T.«_CPP_COMMENT_NL» u11.text, tk T.«_CPP_COMMENT_NL» u12.text, tk T.«_CPP_COMMENT_NL» u13.text, tk T.«_CPP_COMMENT_NL» u14.text] (u0 :: (u1 :: (u2 :: (u3 :: (w4 ++ (u5 :: (u6 :: (u7 :: (u8 :: (u9 :: (u10 :: (u11 :: (u12 :: (u13 :: (u14 :: ([])))))))))))))))) n := (.tok k0 (by decide) (.tok k1 (by decide) (.tok k2 (by decide) (.tok k3 (by decide) (.nt (by simpa only [List.append_assoc, List.nil_append, List.append_nil, List.cons_append, nextT_append, nextT_cons, nextT_nil] using h4) (.tok k5 (by decide) (.tok k6 (by decide) (.tok k7 (by decide) (.tok k8 (by decide) (.tok k9 (by decide) (.tok k10 (by decide) (.tok k11 (by decide) (.tok k12 (by decide) (.tok k13 (by decide) (.tok k14 (by decide) .nil)))))))))) (fun h h' => by first | exact absurd h (by decide) | exact absurd h' (by decide))))))); simpa only [List.append_assoc, List.nil_append, List.append_nil, List.cons_append, nextT_append, nextT_cons, nextT_nil] using this) (by simp only [keepKids', List.flatMap_cons, List.flatMap_nil, List.replicate_zero, List.replicate_succ, List.getElem?_cons_zero, List.getElem?_cons_succ, Bool.false_eq_true, if_true, if_false, List.append_nil, List.nil_append, List.cons_append, List.append_assoc, kidsOf_nd] <;> rfl)

theorem y_157 {n : Nat} {u0 : Tok} {u1 : Tok} {u2 : Tok} {u3 : Tok} {c4 : Tree} {w4 : List Tok} {u5 : Tok} (k0 : u0.type = T.«AT») (k1 : u1.type = T.«__ANON_2») (k2 : u2.type = T.«LPAR») (k3 : u3.type = T.«_CPP_COMMENT_NL») (h4 : Y N.«value_brackets» c4 w4 u5.type) (k5 : u5.type = T.«RPAR») :
    Y N.«decorator» (nd "decorator" (tk T.«__ANON_2» u1.text :: [c4])) (u0 :: (u1 :: (u2 :: (u3 :: (w4 ++ [u5]))))) n :=
  Y.node ⟨N.«decorator», [T.«AT», T.«__ANON_2», T.«LPAR», T.«_CPP_COMMENT_NL», N.«value_brackets», T.«RPAR»], "decorator", false, [(1, false, 0), (4, false, 0)], 0⟩ (by decide +kernel) rfl (by decide) (free_plain (by decide) (by decide)) (cs := [tk T.«AT» u0.text, tk T.«__ANON_2» u1.text, tk T.«LPAR» u2.text, tk T.«_CPP_COMMENT_NL» u3.text, c4, tk T.«RPAR» u5.text]) (by have : YL [T.«AT», T.«__ANON_2», T.«LPAR», T.«_CPP_COMMENT_NL», N.«value_brackets», T.«RPAR»] [tk T.«AT» u0.text, tk T.«__ANON_2» u1.text, tk T.«LPAR» u2.text, tk T.«_CPP_COMMENT_NL» u3.text, c4, tk T.«RPAR» u5.text] (u0 :: (u1 :: (u2 :: (u3 :: (w4 ++ (u5 :: ([]))))))) n := (.tok k0 (by decide) (.tok k1 (by decide) (.tok k2 (by decide) (.tok k3 (by decide) (.nt (by simpa only [List.append_assoc, List.nil_append, List.append_nil, List.cons_append, nextT_append, nextT_cons, nextT_nil] using h4) (.tok k5 (by decide) .nil) (fun h h' => by first | exact absurd h (by decide) | exact absurd h' (by decide))))))); simpa only [List.append_assoc, List.nil_append, List.append_nil, List.cons_append, nextT_append, nextT_cons, nextT_nil] using this) (by simp only [keepKids', List.flatMap_cons, List.flatMap_nil, List.replicate_zero, List.replicate_succ, List.getElem?_cons_zero, List.getElem?_cons_succ, Bool.false_eq_true, if_true, if_false, List.append_nil, List.nil_append, List.cons_append, List.append_assoc, kidsOf_nd] <;> rfl)

theorem y_160 {n : Nat} {u0 : Tok} {u1 : Tok} {u2 : Tok} {u3 : Tok} {c4 : Tree} {w4 : List Tok} {u5 : Tok} {u6 : Tok} {u7 : Tok} {u8 : Tok} (k0 : u0.type = T.«AT») (k1 : u1.type = T.«__ANON_2») (k2 : u2.type = T.«LPAR») (k3 : u3.type = T.«_CPP_COMMENT_NL») (h4 : Y N.«value_brackets» c4 w4 u5.type) (k5 : u5.type = T.«RPAR») (k6 : u6.type = T.«_CPP_COMMENT_NL») (k7 : u7.type = T.«_CPP_COMMENT_NL») (k8 : u8.type = T.«_CPP_COMMENT_NL») :
    Y N.«decorator» (nd "decorator" (tk T.«__ANON_2» u1.text :: [c4])) (u0 :: (u1 :: (u2 :: (u3 :: (w4 ++ (u5 :: (u6 :: (u7 :: [u8])))))))) n :=
  Y.node ⟨N.«decorator», [T.«AT», T.«__ANON_2», T.«LPAR», T.«_CPP_COMMENT_NL», N.«value_brackets», T.«RPAR», T.«_CPP_COMMENT_NL», T.«_CPP_COMMENT_NL», T.«_CPP_COMMENT_NL»], "decorator", false, [(1, false, 0), (4, false, 0)], 0⟩ (by decide +kernel) rfl (by decide) (free_plain (by decide) (by decide)) (cs := [tk T.«AT» u0.text, tk T.«__ANON_2» u1.text, tk T.«LPAR» u2.text, tk T.«_CPP_COMMENT_NL» u3.text, c4, tk T.«RPAR» u5.text, tk T.«_CPP_COMMENT_NL» u6.text, tk T.«_CPP_COMMENT_NL» u7.text, tk T.«_CPP_COMMENT_NL» u8.text]) (by have : YL [T.«AT», T.«__ANON_2», T.«LPAR», T.«_CPP_COMMENT_NL», N.«value_brackets», T.«RPAR», T.«_CPP_COMMENT_NL», T.«_CPP_COMMENT_NL», T.«_CPP_COMMENT_NL»] [tk T.«AT» u0.text, tk T.«__ANON_2» u1.text, tk T.«LPAR» u2.text, tk T.«_CPP_COMMENT_NL» u3.text, c4, tk T.«RPAR» u5.text, tk T.«_CPP_COMMENT_NL» u6.text, tk T.«_CPP_COMMENT_NL» u7.text, tk T.«_CPP_COMMENT_NL» u8.text] (u0 :: (u1 :: (u2 :: (u3 :: (w4 ++ (u5 :: (u6 :: (u7 :: (u8 :: ([])))))))))) n := (.tok k0 (by decide) (.tok k1 (by decide) (.tok k2 (by decide) (.tok k3 (by decide) (.nt (by simpa only [List.append_assoc, List.nil_append, List.append_nil, List.cons_append, nextT_append, nextT_cons, nextT_nil] using h4) (.tok k5 (by decide) (.tok k6 (by decide) (.tok k7 (by decide) (.tok k8 (by decide) .nil)))) (fun h h' => by first | exact absurd h (by decide) | exact absurd h' (by decide))))))); simpa only [List.append_assoc, List.nil_append, List.append_nil, List.cons_append, nextT_append, nextT_cons, nextT_nil] using this) (by simp only [keepKids', List.flatMap_cons, List.flatMap_nil, List.replicate_zero, List.replicate_succ, List.getElem?_cons_zero, List.getElem?_cons_succ, Bool.false_eq_true, if_true, if_false, List.append_nil, List.nil_append, List.cons_append, List.append_assoc, kidsOf_nd] <;> rfl)

theorem y_163 {n : Nat} {u0 : Tok} {u1 : Tok} {u2 : Tok} {u3 : Tok} {c4 : Tree} {w4 : List Tok} {u5 : Tok} {u6 : Tok} {u7 : Tok} {u8 : Tok} {u9 : Tok} {u10 : Tok} {u11 : Tok} (k0 : u0.type = T.«AT») (k1 : u1.type = T.«__ANON_2») (k2 : u2.type = T.«LPAR») (k3 : u3.type = T.«_CPP_COMMENT_NL») (h4 : Y N.«value_brackets» c4 w4 u5.type) (k5 : u5.type = T.«RPAR») (k6 : u6.type = T.«_CPP_COMMENT_NL») (k7 : u7.type = T.«_CPP_COMMENT_NL») (k8 : u8.type = T.«_CPP_COMMENT_NL») (k9 : u9.type = T.«_CPP_COMMENT_NL») (k10 : u10.type = T.«_CPP_COMMENT_NL») (k11 : u11.type = T.«_CPP_COMMENT_NL») :
    Y N.«decorator» (nd "decorator" (tk T.«__ANON_2» u1.text :: [c4])) (u0 :: (u1 :: (u2 :: (u3 :: (w4 ++ (u5 :: (u6 :: (u7 :: (u8 :: (u9 :: (u10 :: [u11]))))))))))) n :=
  Y.node ⟨N.«decorator», [T.«AT», T.«__ANON_2», T.«LPAR», T.«_CPP_COMMENT_NL», N.«value_brackets», T.«RPAR», T.«_CPP_COMMENT_NL», T.«_CPP_COMMENT_NL», T.«_CPP_COMMENT_NL», T.«_CPP_COMMENT_NL», T.«_CPP_COMMENT_NL», T.«_CPP_COMMENT_NL»], "decorator", false, [(1, false, 0), (4, false, 0)], 0⟩ (by decide +kernel) rfl (by decide) (free_plain (by decide) (by decide)) (cs := [tk T.«AT» u0.text, tk T.«__ANON_2» u1.text, tk T.«LPAR» u2.text, tk T.«_CPP_COMMENT_NL» u3.text, c4, tk T.«RPAR» u5.text, tk T.«_CPP_COMMENT_NL» u6.text, tk T.«_CPP_COMMENT_NL» u7.text, tk T.«_CPP_COMMENT_NL» u8.text, tk T.«_CPP_COMMENT_NL» u9.text, tk T.«_CPP_COMMENT_NL» u10.text, tk T.«_CPP_COMMENT_NL» u11.text]) (by have : YL [T.«AT», T.«__ANON_2», T.«LPAR», T.«_CPP_COMMENT_NL», N.«value_brackets», T.«RPAR», T.«_CPP_COMMENT_NL», T.«_CPP_COMMENT_NL», T.«_CPP_COMMENT_NL», T.«_CPP_COMMENT_NL», T.«_CPP_COMMENT_NL», T.«_CPP_COMMENT_NL»] [tk T.«AT» u0.text, tk T.«__ANON_2» u1.text, tk T.«LPAR» u2.text, tk T.«_CPP_COMMENT_NL» u3.text, c4, tk T.«RPAR» u5.text, tk T.«_CPP_COMMENT_NL» u6.text, tk T.«_CPP_COMMENT_NL» u7.text, tk T.«_CPP_COMMENT_NL» u8.text, tk T.«_CPP_COMMENT_NL» u9.text, tk T.«_CPP_COMMENT_NL» u10.text, tk T.«_CPP_COMMENT_NL» u11.text] (u0 :: (u1 :: (u2 :: (u3 :: (w4 ++ (u5 :: (u6 :: (u7 :: (u8 :: (u9 :: (u10 :: (u11 :: ([]))))))))))))) n := (.tok k0 (by decide) (.tok k1 (by decide) (.tok k2 (by decide) (.tok k3 (by decide) (.nt (by simpa only [List.append_assoc, List.nil_append, List.append_nil, List.cons_append, nextT_append, nextT_cons, nextT_nil] using h4) (.tok k5 (by decide) (.tok k6 (by decide) (.tok k7 (by decide) (.tok k8 (by decide) (.tok k9 (by decide) (.tok k10 (by decide) (.tok k11 (by decide) .nil))))))) (fun h h' => by first | exact absurd h (by decide) | exact absurd h' (by decide))))))); simpa only [List.append_assoc, List.nil_append, List.append_nil, List.cons_append, nextT_append, nextT_cons, nextT_nil] using this) (by simp only [keepKids', List.flatMap_cons, List.flatMap_nil, List.replicate_zero, List.replicate_succ, List.getElem?_cons_zero, List.getElem?_cons_succ, Bool.false_eq_true, if_true, if_false, List.append_nil, List.nil_append, List.cons_append, List.append_assoc, kidsOf_nd] <;> rfl)

theorem y_166 {n : Nat} {u0 : Tok} {u1 : Tok} {u2 : Tok} {u3 : Tok} {c4 : Tree} {w4 : List Tok} {u5 : Tok} {u6 : Tok} {u7 : Tok} {u8 : Tok} {u9 : Tok} {u10 : Tok} {u11 : Tok} {u12 : Tok} {u13 : Tok} {u14 : Tok} (k0 : u0.type = T.«AT») (k1 : u1.type = T.«__ANON_2») (k2 : u2.type = T.«LPAR») (k3 : u3.type = T.«_CPP_COMMENT_NL») (h4 : Y N.«value_brackets» c4 w4 u5.type) (k5 : u5.type = T.«RPAR») (k6 : u6.type = T.«_CPP_COMMENT_NL») (k7 : u7.type = T.«_CPP_COMMENT_NL») (k8 : u8.type = T.«_CPP_COMMENT_NL») (k9 : u9.type = T.«_CPP_COMMENT_NL») (k10 : u10.type = T.«_CPP_COMMENT_NL») (k11 : u11.type = T.«_CPP_COMMENT_NL») (k12 : u12.type = T.«_CPP_COMMENT_NL») (k13 : u13.type = T.«_CPP_COMMENT_NL») (k14 : u14.type = T.«_CPP_COMMENT_NL») :
    Y N.«decorator» (nd "decorator" (tk T.«__ANON_2» u1.text :: [c4])) (u0 :: (u1 :: (u2 :: (u3 :: (w4 ++ (u5 :: (u6 :: (u7 :: (u8 :: (u9 :: (u10 :: (u11 :: (u12 :: (u13 :: [u14])))))))))))))) n :=
  Y.node ⟨N.«decorator», [T.«AT», T.«__ANON_2», T.«LPAR», T.«_CPP_COMMENT_NL», N.«value_brackets», T.«RPAR», T.«_CPP_COMMENT_NL», T.«_CPP_COMMENT_NL», T.«_CPP_COMMENT_NL», T.«_CPP_COMMENT_NL», T.«_CPP_COMMENT_NL», T.«_CPP_COMMENT_NL», T.«_CPP_COMMENT_NL», T.«_CPP_COMMENT_NL», T.«_CPP_COMMENT_NL»], "decorator", false, [(1, false, 0), (4, false, 0)], 0⟩ (by decide +kernel) rfl (by decide) (free_plain (by decide) (by decide)) (cs := [tk T.«AT» u0.text, tk T.«__ANON_2» u1.text, tk T.«LPAR» u2.text, tk T.«_CPP_COMMENT_NL» u3.text, c4, tk T.«RPAR» u5.text, tk T.«_CPP_COMMENT_NL» u6.text, tk T.«_CPP_COMMENT_NL» u7.text, tk T.«_CPP_COMMENT_NL» u8.text, tk T.«_CPP_COMMENT_NL» u9.text, tk T.«_CPP_COMMENT_NL» u10.text, tk T.«_CPP_COMMENT_NL» u11.text, tk T.«_CPP_COMMENT_NL» u12.text, tk T.«_CPP_COMMENT_NL» u13.text, tk T.«_CPP_COMMENT_NL» u14.text]) (by have : YL [T.«AT», T.«__ANON_2», T.«LPAR», T.«_CPP_COMMENT_NL», N.«value_brackets», T.«RPAR», T.«_CPP_COMMENT_NL», T.«_CPP_COMMENT_NL», T.«_CPP_COMMENT_NL», T.«_CPP_COMMENT_NL», T.«_CPP_COMMENT_NL», T.«_CPP_COMMENT_NL», T.«_CPP_COMMENT_NL», T.«_CPP_COMMENT_NL», T.«_CPP_COMMENT_NL»] [tk T.«AT» u0.text, tk T.«__ANON_2» u1.text, tk T.«LPAR» u2.text, tk T.«_CPP_COMMENT_NL» u3.text, c4, tk T.«RPAR» u5.text, tk T.«_CPP_COMMENT_NL» u6.text, tk T.«_CPP_COMMENT_NL» u7.text, tk T.«_CPP_COMMENT_NL» u8.text, tk T.«_CPP_COMMENT_NL» u9.text, tk T.«_CPP_COMMENT_NL» u10.text, tk T.«_CPP_COMMENT_NL» u11.text, tk T.«_CPP_COMMENT_NL» u12.text, tk T.«_CPP_COMMENT_NL» u13.text, tk T.«_CPP_COMMENT_NL» u14.text] (u0 :: (u1 :: (u2 :: (u3 :: (w4 ++ (u5 :: (u6 :: (u7 :: (u8 :: (u9 :: (u10 :: (u11 :: (u12 :: (u13 :: (u14 :: ([])))))))))))))))) n := (.tok k0 (by decide) (.tok k1 (by decide) (.tok k2 (by decide) (.tok k3 (by decide) (.nt (by simpa only [List.append_assoc, List.nil_append, List.append_nil, List.cons_append, nextT_append, nextT_cons, nextT_nil] using h4) (.tok k5 (by decide) (.tok k6 (by decide) (.tok k7 (by decide) (.tok k8 (by decide) (.tok k9 (by decide) (.tok k10 (by decide) (.tok k11 (by decide) (.tok k12 (by decide) (.tok k13 (by decide) (.tok k14 (by decide) .nil)))))))))) (fun h h' => by first | exact absurd h (by decide) | exact absurd h' (by decide))))))); simpa only [List.append_assoc, List.nil_append, List.append_nil, List.cons_append, nextT_append, nextT_cons, nextT_nil] using this) (by simp only [keepKids', List.flatMap_cons, List.flatMap_nil, List.replicate_zero, List.replicate_succ, List.getElem?_cons_zero, List.getElem?_cons_succ, Bool.false_eq_true, if_true, if_false, List.append_nil, List.nil_append, List.cons_append, List.append_assoc, kidsOf_nd] <;> rfl)

theorem y_169 {n : Nat} {u0 : Tok} {u1 : Tok} {u2 : Tok} {u3 : Tok} {u4 : Tok} {u5 : Tok} {u6 : Tok} (k0 : u0.type = T.«AT») (k1 : u1.type = T.«__ANON_2») (k2 : u2.type = T.«LPAR») (k3 : u3.type = T.«_CPP_COMMENT_NL») (k4 : u4.type = T.«_CPP_COMMENT_NL») (k5 : u5.type = T.«RPAR») (k6 : u6.type = T.«_CPP_COMMENT_NL») :
    Y N.«decorator» (nd "decorator" [tk T.«__ANON_2» u1.text]) (u0 :: (u1 :: (u2 :: (u3 :: (u4 :: (u5 :: [u6])))))) n :=
  Y.node ⟨N.«decorator», [T.«AT», T.«__ANON_2», T.«LPAR», T.«_CPP_COMMENT_NL», T.«_CPP_COMMENT_NL», T.«RPAR», T.«_CPP_COMMENT_NL»], "decorator", false, [(1, false, 0)], 0⟩ (by decide +kernel) rfl (by decide) (free_plain (by decide) (by decide)) (cs := [tk T.«AT» u0.text, tk T.«__ANON_2» u1.text, tk T.«LPAR» u2.text, tk T.«_CPP_COMMENT_NL» u3.text, tk T.«_CPP_COMMENT_NL» u4.text, tk T.«RPAR» u5.text, tk T.«_CPP_COMMENT_NL» u6.text]) (by have : YL [T.«AT», T.«__ANON_2», T.«LPAR», T.«_CPP_COMMENT_NL», T.«_CPP_COMMENT_NL», T.«RPAR», T.«_CPP_COMMENT_NL»] [tk T.«AT» u0.text, tk T.«__ANON_2» u1.text, tk T.«LPAR» u2.text, tk T.«_CPP_COMMENT_NL» u3.text, tk T.«_CPP_COMMENT_NL» u4.text, tk T.«RPAR» u5.text, tk T.«_CPP_COMMENT_NL» u6.text] (u0 :: (u1 :: (u2 :: (u3 :: (u4 :: (u5 :: (u6 :: ([])))))))) n := (.tok k0 (by decide) (.tok k1 (by decide) (.tok k2 (by decide) (.tok k3 (by decide) (.tok k4 (by decide) (.tok k5 (by decide) (.tok k6 (by decide) .nil))))))); simpa only [List.append_assoc, List.nil_append, List.append_nil, List.cons_append, nextT_append, nextT_cons, nextT_nil] using this) (by simp only [keepKids', List.flatMap_cons, List.flatMap_nil, List.replicate_zero, List.replicate_succ, List.getElem?_cons_zero, List.getElem?_cons_succ, Bool.false_eq_true, if_true, if_false, List.append_nil, List.nil_append, List.cons_append, List.append_assoc, kidsOf_nd] <;> rfl)

theorem y_172 {n : Nat} {u0 : Tok} {u1 : Tok} {u2 : Tok} {u3 : Tok} {u4 : Tok} {u5 : Tok} {u6 : Tok} {u7 : Tok} {u8 : Tok} {u9 : Tok} (k0 : u0.type = T.«AT») (k1 : u1.type = T.«__ANON_2») (k2 : u2.type = T.«LPAR») (k3 : u3.type = T.«_CPP_COMMENT_NL») (k4 : u4.type = T.«_CPP_COMMENT_NL») (k5 : u5.type = T.«RPAR») (k6 : u6.type = T.«_CPP_COMMENT_NL») (k7 : u7.type = T.«_CPP_COMMENT_NL») (k8 : u8.type = T.«_CPP_COMMENT_NL») (k9 : u9.type = T.«_CPP_COMMENT_NL») :
    Y N.«decorator» (nd "decorator" [tk T.«__ANON_2» u1.text]) (u0 :: (u1 :: (u2 :: (u3 :: (u4 :: (u5 :: (u6 :: (u7 :: (u8 :: [u9]))))))))) n :=
  Y.node ⟨N.«decorator», [T.«AT», T.«__ANON_2», T.«LPAR», T.«_CPP_COMMENT_NL», T.«_CPP_COMMENT_NL», T.«RPAR», T.«_CPP_COMMENT_NL», T.«_CPP_COMMENT_NL», T.«_CPP_COMMENT_NL», T.«_CPP_COMMENT_NL»], "decorator", false, [(1, false, 0)], 0⟩ (by decide +kernel) rfl (by decide) (free_plain (by decide) (by decide)) (cs := [tk T.«AT» u0.text, tk T.«__ANON_2» u1.text, tk T.«LPAR» u2.text, tk T.«_CPP_COMMENT_NL» u3.text, tk T.«_CPP_COMMENT_NL» u4.text, tk T.«RPAR» u5.text, tk T.«_CPP_COMMENT_NL» u6.text, tk T.«_CPP_COMMENT_NL» u7.text, tk T.«_CPP_COMMENT_NL» u8.text, tk T.«_CPP_COMMENT_NL» u9.text]) (by have : YL [T.«AT», T.«__ANON_2», T.«LPAR», T.«_CPP_COMMENT_NL», T.«_CPP_COMMENT_NL», T.«RPAR», T.«_CPP_COMMENT_NL», T.«_CPP_COMMENT_NL», T.«_CPP_COMMENT_NL», T.«_CPP_COMMENT_NL»] [tk T.«AT» u0.text, tk T.«__ANON_2» u1.text, tk T.«LPAR» u2.text, tk T.«_CPP_COMMENT_NL» u3.text, tk T.«_CPP_COMMENT_NL» u4.text, tk T.«RPAR» u5.text, tk T.«_CPP_COMMENT_NL» u6.text, tk T.«_CPP_COMMENT_NL» u7.text, tk T.«_CPP_COMMENT_NL» u8.text, tk T.«_CPP_COMMENT_NL» u9.text] (u0 :: (u1 :: (u2 :: (u3 :: (u4 :: (u5 :: (u6 :: (u7 :: (u8 :: (u9 :: ([]))))))))))) n := (.tok k0 (by decide) (.tok k1 (by decide) (.tok k2 (by decide) (.tok k3 (by decide) (.tok k4 (by decide) (.tok k5 (by decide) (.tok k6 (by decide) (.tok k7 (by decide) (.tok k8 (by decide) (.tok k9 (by decide) .nil)))))))))); simpa only [List.append_assoc, List.nil_append, List.append_nil, List.cons_append, nextT_append, nextT_cons, nextT_nil] using this) (by simp only [keepKids', List.flatMap_cons, List.flatMap_nil, List.replicate_zero, List.replicate_succ, List.getElem?_cons_zero, List.getElem?_cons_succ, Bool.false_eq_true, if_true, if_false, List.append_nil, List.nil_append, List.cons_append, List.append_assoc, kidsOf_nd] <;> rfl)

theorem y_175 {n : Nat} {u0 : Tok} {u1 : Tok} {u2 : Tok} {u3 : Tok} {u4 : Tok} {u5 : Tok} {u6 : Tok} {u7 : Tok} {u8 : Tok} {u9 : Tok} {u10 : Tok} {u11 : Tok} {u12 : Tok} (k0 : u0.type = T.«AT») (k1 : u1.type = T.«__ANON_2») (k2 : u2.type = T.«LPAR») (k3 : u3.type = T.«_CPP_COMMENT_NL») (k4 : u4.type = T.«_CPP_COMMENT_NL») (k5 : u5.type = T.«RPAR») (k6 : u6.type = T.«_CPP_COMMENT_NL») (k7 : u7.type = T.«_CPP_COMMENT_NL») (k8 : u8.type = T.«_CPP_COMMENT_NL») (k9 : u9.type = T.«_CPP_COMMENT_NL») (k10 : u10.type = T.«_CPP_COMMENT_NL») (k11 : u11.type = T.«_CPP_COMMENT_NL») (k12 : u12.type = T.«_CPP_COMMENT_NL») :
    Y N.«decorator» (nd "decorator" [tk T.«__ANON_2» u1.text]) (u0 :: (u1 :: (u2 :: (u3 :: (u4 :: (u5 :: (u6 :: (u7 :: (u8 :: (u9 :: (u10 :: (u11 :: [u12])))))))))))) n :=
  Y.node ⟨N.«decorator», [T.«AT», T.«__ANON_2», T.«LPAR», T.«_CPP_COMMENT_NL», T.«_CPP_COMMENT_NL», T.«RPAR», T.«_CPP_COMMENT_NL», T.«_CPP_COMMENT_NL», T.«_CPP_COMMENT_NL», T.«_CPP_COMMENT_NL», T.«_CPP_COMMENT_NL», T.«_CPP_COMMENT_NL», T.«_CPP_COMMENT_NL»], "decorator", false, [(1, false, 0)], 0⟩ (by decide +kernel) rfl (by decide) (free_plain (by decide) (by decide)) (cs := [tk T.«AT» u0.text, tk T.«__ANON_2» u1.text, tk T.«LPAR» u2.text, tk T.«_CPP_COMMENT_NL» u3.text, tk T.«_CPP_COMMENT_NL» u4.text, tk T.«RPAR» u5.text, tk T.«_CPP_COMMENT_NL» u6.text, tk T.«_CPP_COMMENT_NL» u7.text, tk T.«_CPP_COMMENT_NL» u8.text, tk T.«_CPP_COMMENT_NL» u9.text, tk T.«_CPP_COMMENT_NL» u10.text, tk T.«_CPP_COMMENT_NL» u11.text, tk T.«_CPP_COMMENT_NL» u12.text]) (by have : YL [T.«AT», T.«__ANON_2», T.«LPAR», T.«_CPP_COMMENT_NL», T.«_CPP_COMMENT_NL», T.«RPAR», T.«_CPP_COMMENT_NL», T.«_CPP_COMMENT_NL», T.«_CPP_COMMENT_NL», T.«_CPP_COMMENT_NL», T.«_CPP_COMMENT_NL», T.«_CPP_COMMENT_NL», T.«_CPP_COMMENT_NL»] [tk T.«AT» u0.text, tk T.«__ANON_2» u1.text, tk T.«LPAR» u2.text, tk T.«_CPP_COMMENT_NL» u3.text, tk T.«_CPP_COMMENT_NL» u4.text, tk T.«RPAR» u5.text, tk T.«_CPP_COMMENT_NL» u6.text, tk T.«_CPP_COMMENT_NL» u7.text, tk T.«_CPP_COMMENT_NL» u8.text, tk T.«_CPP_COMMENT_NL» u9.text, tk T.«_CPP_COMMENT_NL» u10.text, tk T.«_CPP_COMMENT_NL» u11.text, tk T.«_CPP_COMMENT_NL» u12.text] (u0 :: (u1 :: (u2 :: (u3 :: (u4 :: (u5 :: (u6 :: (u7 :: (u8 :: (u9 :: (u10 :: (u11 :: (u12 :: ([])))))))))))))) n := (.tok k0 (by decide) (.tok k1 (by decide) (.tok k2 (by decide) (.tok k3 (by decide) (.tok k4 (by decide) (.tok k5 (by decide) (.tok k6 (by decide) (.tok k7 (by decide) (.tok k8 (by decide) (.tok k9 (by decide) (.tok k10 (by decide) (.tok k11 (by decide) (.tok k12 (by decide) .nil))))))))))))); simpa only [List.append_assoc, List.nil_append, List.append_nil, List.cons_append, nextT_append, nextT_cons, nextT_nil] using this) (by simp only [keepKids', List.flatMap_cons, List.flatMap_nil, List.replicate_zero, List.replicate_succ, List.getElem?_cons_zero, List.getElem?_cons_succ, Bool.false_eq_true, if_true, if_false, List.append_nil, List.nil_append, List.cons_append, List.append_assoc, kidsOf_nd] <;> rfl)

theorem y_178 {n : Nat} {u0 : Tok} {u1 : Tok} {u2 : Tok} {u3 : Tok} {u4 : Tok} {u5 : Tok} {u6 : Tok} {u7 : Tok} {u8 : Tok} {u9 : Tok} {u10 : Tok} {u11 : Tok} {u12 : Tok} {u13 : Tok} {u14 : Tok} {u15 : Tok} (k0 : u0.type = T.«AT») (k1 : u1.type = T.«__ANON_2») (k2 : u2.type = T.«LPAR») (k3 : u3.type = T.«_CPP_COMMENT_NL») (k4 : u4.type = T.«_CPP_COMMENT_NL») (k5 : u5.type = T.«RPAR») (k6 : u6.type = T.«_CPP_COMMENT_NL») (k7 : u7.type = T.«_CPP_COMMENT_NL») (k8 : u8.type = T.«_CPP_COMMENT_NL») (k9 : u9.type = T.«_CPP_COMMENT_NL») (k10 : u10.type = T.«_CPP_COMMENT_NL») (k11 : u11.type = T.«_CPP_COMMENT_NL») (k12 : u12.type = T.«_CPP_COMMENT_NL») (k13 : u13.type = T.«_CPP_COMMENT_NL») (k14 : u14.type = T.«_CPP_COMMENT_NL») (k15 : u15.type = T.«_CPP_COMMENT_NL») :
    Y N.«decorator» (nd "decorator" [tk T.«__ANON_2» u1.text]) (u0 :: (u1 :: (u2 :: (u3 :: (u4 :: (u5 :: (u6 :: (u7 :: (u8 :: (u9 :: (u10 :: (u11 :: (u12 :: (u13 :: (u14 :: [u15]))))))))))))))) n :=
  Y.node ⟨N.«decorator», [T.«AT», T.«__ANON_2», T.«LPAR», T.«_CPP_COMMENT_NL», T.«_CPP_COMMENT_NL», T.«RPAR», T.«_CPP_COMMENT_NL», T.«_CPP_COMMENT_NL», T.«_CPP_COMMENT_NL», T.«_CPP_COMMENT_NL», T.«_CPP_COMMENT_NL», T.«_CPP_COMMENT_NL», T.«_CPP_COMMENT_NL», T.«_CPP_COMMENT_NL», T.«_CPP_COMMENT_NL», T.«_CPP_COMMENT_NL»], "decorator", false, [(1, false, 0)], 0⟩ (by decide +kernel) rfl (by decide) (free_plain (by decide) (by decide)) (cs := [tk T.«AT» u0.text, tk T.«__ANON_2» u1.text, tk T.«LPAR» u2.text, tk T.«_CPP_COMMENT_NL» u3.text, tk T.«_CPP_COMMENT_NL» u4.text, tk T.«RPAR» u5.text, tk T.«_CPP_COMMENT_NL» u6.text, tk T.«_CPP_COMMENT_NL» u7.text, tk T.«_CPP_COMMENT_NL» u8.text, tk T.«_CPP_COMMENT_NL» u9.text, tk T.«_CPP_COMMENT_NL» u10.text, tk T.«_CPP_COMMENT_NL» u11.text, tk T.«_CPP_COMMENT_NL» u12.text, tk T.«_CPP_COMMENT_NL» u13.text, tk T.«_CPP_COMMENT_NL» u14.text, tk T.«_CPP_COMMENT_NL» u15.text]) (by have : YL [T.«AT», T.«__ANON_2», T.«LPAR», T.«_CPP_COMMENT_NL», T.«_CPP_COMMENT_NL», T.«RPAR», T.«_CPP_COMMENT_NL», T.«_CPP_COMMENT_NL», T.«_CPP_COMMENT_NL», T.«_CPP_COMMENT_NL», T.«_CPP_COMMENT_NL», T.«_CPP_COMMENT_NL», T.«_CPP_COMMENT_NL», T.«_CPP_COMMENT_NL», T.«_CPP_COMMENT_NL», T.«_CPP_COMMENT_NL»] [tk T.«AT» u0.text, tk T.«__ANON_2» u1.text, tk T.«LPAR» u2.text, tk T.«_CPP_COMMENT_NL» u3.text, tk T.«_CPP_COMMENT_NL» u4.text, tk T.«RPAR» u5.text, tk T.«_CPP_COMMENT_NL» u6.text, tk T.«_CPP_COMMENT_NL» u7.text, tk T.«_CPP_COMMENT_NL» u8.text, tk T.«_CPP_COMMENT_NL» u9.text, tk T.«_CPP_COMMENT_NL» u10.text, tk T.«_CPP_COMMENT_NL» u11.text, tk T.«_CPP_COMMENT_NL» u12.text, tk T.«_CPP_COMMENT_NL» u13.text, tk T.«_CPP_COMMENT_NL» u14.text, tk T.«_CPP_COMMENT_NL» u15.text] (u0 :: (u1 :: (u2 :: (u3 :: (u4 :: (u5 :: (u6 :: (u7 :: (u8 :: (u9 :: (u10 :: (u11 :: (u12 :: (u13 :: (u14 :: (u15 :: ([]))))))))))))))))) n := (.tok k0 (by decide) (.tok k1 (by decide) (.tok k2 (by decide) (.tok k3 (by decide) (.tok k4 (by decide) (.tok k5 (by decide) (.tok k6 (by decide) (.tok k7 (by decide) (.tok k8 (by decide) (.tok k9 (by decide) (.tok k10 (by decide) (.tok k11 (by decide) (.tok k12 (by decide) (.tok k13 (by decide) (.tok k14 (by decide) (.tok k15 (by decide) .nil)))))))))))))))); simpa only [List.append_assoc, List.nil_append, List.append_nil, List.cons_append, nextT_append, nextT_cons, nextT_nil] using this) (by simp only [keepKids', List.flatMap_cons, List.flatMap_nil, List.replicate_zero, List.replicate_succ, List.getElem?_cons_zero, List.getElem?_cons_succ, Bool.false_eq_true, if_true, if_false, List.append_nil, List.nil_append, List.cons_append, List.append_assoc, kidsOf_nd] <;> rfl)

theorem y_181 {n : Nat} {u0 : Tok} {u1 : Tok} {u2 : Tok} {u3 : Tok} {u4 : Tok} {u5 : Tok} {u6 : Tok} (k0 : u0.type = T.«AT») (k1 : u1.type = T.«__ANON_2») (k2 : u2.type = T.«LPAR») (k3 : u3.type = T.«_CPP_COMMENT_NL») (k4 : u4.type = T.«RPAR») (k5 : u5.type = T.«_CPP_COMMENT_NL») (k6 : u6.type = T.«_CPP_COMMENT_NL») :
    Y N.«decorator» (nd "decorator" [tk T.«__ANON_2» u1.text]) (u0 :: (u1 :: (u2 :: (u3 :: (u4 :: (u5 :: [u6])))))) n :=
  Y.node ⟨N.«decorator», [T.«AT», T.«__ANON_2», T.«LPAR», T.«_CPP_COMMENT_NL», T.«RPAR», T.«_CPP_COMMENT_NL», T.«_CPP_COMMENT_NL»], "decorator", false, [(1, false, 0)], 0⟩ (by decide +kernel) rfl (by decide) (free_plain (by decide) (by decide)) (cs := [tk T.«AT» u0.text, tk T.«__ANON_2» u1.text, tk T.«LPAR» u2.text, tk T.«_CPP_COMMENT_NL» u3.text, tk T.«RPAR» u4.text, tk T.«_CPP_COMMENT_NL» u5.text, tk T.«_CPP_COMMENT_NL» u6.text]) (by have : YL [T.«AT», T.«__ANON_2», T.«LPAR», T.«_CPP_COMMENT_NL», T.«RPAR», T.«_CPP_COMMENT_NL», T.«_CPP_COMMENT_NL»] [tk T.«AT» u0.text, tk T.«__ANON_2» u1.text, tk T.«LPAR» u2.text, tk T.«_CPP_COMMENT_NL» u3.text, tk T.«RPAR» u4.text, tk T.«_CPP_COMMENT_NL» u5.text, tk T.«_CPP_COMMENT_NL» u6.text] (u0 :: (u1 :: (u2 :: (u3 :: (u4 :: (u5 :: (u6 :: ([])))))))) n := (.tok k0 (by decide) (.tok k1 (by decide) (.tok k2 (by decide) (.tok k3 (by decide) (.tok k4 (by decide) (.tok k5 (by decide) (.tok k6 (by decide) .nil))))))); simpa only [List.append_assoc, List.nil_append, List.append_nil, List.cons_append, nextT_append, nextT_cons, nextT_nil] using this) (by simp only [keepKids', List.flatMap_cons, List.flatMap_nil, List.replicate_zero, List.replicate_succ, List.getElem?_cons_zero, List.getElem?_cons_succ, Bool.false_eq_true, if_true, if_false, List.append_nil, List.nil_append, List.cons_append, List.append_assoc, kidsOf_nd] <;> rfl)

theorem y_184 {n : Nat} {u0 : Tok} {u1 : Tok} {u2 : Tok} {u3 : Tok} {u4 : Tok} {u5 : Tok} {u6 : Tok} {u7 : Tok} {u8 : Tok} {u9 : Tok} (k0 : u0.type = T.«AT») (k1 : u1.type = T.«__ANON_2») (k2 : u2.type = T.«LPAR») (k3 : u3.type = T.«_CPP_COMMENT_NL») (k4 : u4.type = T.«RPAR») (k5 : u5.type = T.«_CPP_COMMENT_NL») (k6 : u6.type = T.«_CPP_COMMENT_NL») (k7 : u7.type = T.«_CPP_COMMENT_NL») (k8 : u8.type = T.«_CPP_COMMENT_NL») (k9 : u9.type = T.«_CPP_COMMENT_NL») :
    Y N.«decorator» (nd "decorator" [tk T.«__ANON_2» u1.text]) (u0 :: (u1 :: (u2 :: (u3 :: (u4 :: (u5 :: (u6 :: (u7 :: (u8 :: [u9]))))))))) n :=
  Y.node ⟨N.«decorator», [T.«AT», T.«__ANON_2», T.«LPAR», T.«_CPP_COMMENT_NL», T.«RPAR», T.«_CPP_COMMENT_NL», T.«_CPP_COMMENT_NL», T.«_CPP_COMMENT_NL», T.«_CPP_COMMENT_NL», T.«_CPP_COMMENT_NL»], "decorator", false, [(1, false, 0)], 0⟩ (by decide +kernel) rfl (by decide) (free_plain (by decide) (by decide)) (cs := [tk T.«AT» u0.text, tk T.«__ANON_2» u1.text, tk T.«LPAR» u2.text, tk T.«_CPP_COMMENT_NL» u3.text, tk T.«RPAR» u4.text, tk T.«_CPP_COMMENT_NL» u5.text, tk T.«_CPP_COMMENT_NL» u6.text, tk T.«_CPP_COMMENT_NL» u7.text, tk T.«_CPP_COMMENT_NL» u8.text, tk T.«_CPP_COMMENT_NL» u9.text]) (by have : YL [T.«AT», T.«__ANON_2», T.«LPAR», T.«_CPP_COMMENT_NL», T.«RPAR», T.«_CPP_COMMENT_NL», T.«_CPP_COMMENT_NL», T.«_CPP_COMMENT_NL», T.«_CPP_COMMENT_NL», T.«_CPP_COMMENT_NL»] [tk T.«AT» u0.text, tk T.«__ANON_2» u1.text, tk T.«LPAR» u2.text, tk T.«_CPP_COMMENT_NL» u3.text, tk T.«RPAR» u4.text, tk T.«_CPP_COMMENT_NL» u5.text, tk T.«_CPP_COMMENT_NL» u6.text, tk T.«_CPP_COMMENT_NL» u7.text, tk T.«_CPP_COMMENT_NL» u8.text, tk T.«_CPP_COMMENT_NL» u9.text] (u0 :: (u1 :: (u2 :: (u3 :: (u4 :: (u5 :: (u6 :: (u7 :: (u8 :: (u9 :: ([]))))))))))) n := (.tok k0 (by decide) (.tok k1 (by decide) (.tok k2 (by decide) (.tok k3 (by decide) (.tok k4 (by decide) (.tok k5 (by decide) (.tok k6 (by decide) (.tok k7 (by decide) (.tok k8 (by decide) (.tok k9 (by decide) .nil)))))))))); simpa only [List.append_assoc, List.nil_append, List.append_nil, List.cons_append, nextT_append, nextT_cons, nextT_nil] using this) (by simp only [keepKids', List.flatMap_cons, List.flatMap_nil, List.replicate_zero, List.replicate_succ, List.getElem?_cons_zero, List.getElem?_cons_succ, Bool.false_eq_true, if_true, if_false, List.append_nil, List.nil_append, List.cons_append, List.append_assoc, kidsOf_nd] <;> rfl)

theorem y_187 {n : Nat} {u0 : Tok} {u1 : Tok} {u2 : Tok} {u3 : Tok} {u4 : Tok} {u5 : Tok} {u6 : Tok} {u7 : Tok} {u8 : Tok} {u9 : Tok} {u10 : Tok} {u11 : Tok} {u12 : Tok} (k0 : u0.type = T.«AT») (k1 : u1.type = T.«__ANON_2») (k2 : u2.type = T.«LPAR») (k3 : u3.type = T.«_CPP_COMMENT_NL») (k4 : u4.type = T.«RPAR») (k5 : u5.type = T.«_CPP_COMMENT_NL») (k6 : u6.type = T.«_CPP_COMMENT_NL») (k7 : u7.type = T.«_CPP_COMMENT_NL») (k8 : u8.type = T.«_CPP_COMMENT_NL») (k9 : u9.type = T.«_CPP_COMMENT_NL») (k10 : u10.type = T.«_CPP_COMMENT_NL») (k11 : u11.type = T.«_CPP_COMMENT_NL») (k12 : u12.type = T.«_CPP_COMMENT_NL») :
    Y N.«decorator» (nd "decorator" [tk T.«__ANON_2» u1.text]) (u0 :: (u1 :: (u2 :: (u3 :: (u4 :: (u5 :: (u6 :: (u7 :: (u8 :: (u9 :: (u10 :: (u11 :: [u12])))))))))))) n :=
  Y.node ⟨N.«decorator», [T.«AT», T.«__ANON_2», T.«LPAR», T.«_CPP_COMMENT_NL», T.«RPAR», T.«_CPP_COMMENT_NL», T.«_CPP_COMMENT_NL», T.«_CPP_COMMENT_NL», T.«_CPP_COMMENT_NL», T.«_CPP_COMMENT_NL», T.«_CPP_COMMENT_NL», T.«_CPP_COMMENT_NL», T.«_CPP_COMMENT_NL»], "decorator", false, [(1, false, 0)], 0⟩ (by decide +kernel) rfl (by decide) (free_plain (by decide) (by decide)) (cs := [tk T.«AT» u0.text, tk T.«__ANON_2» u1.text, tk T.«LPAR» u2.text, tk T.«_CPP_COMMENT_NL» u3.text, tk T.«RPAR» u4.text, tk T.«_CPP_COMMENT_NL» u5.text, tk T.«_CPP_COMMENT_NL» u6.text, tk T.«_CPP_COMMENT_NL» u7.text, tk T.«_CPP_COMMENT_NL» u8.text, tk T.«_CPP_COMMENT_NL» u9.text, tk T.«_CPP_COMMENT_NL» u10.text, tk T.«_CPP_COMMENT_NL» u11.text, tk T.«_CPP_COMMENT_NL» u12.text]) (by have : YL [T.«AT», T.«__ANON_2», T.«LPAR», T.«_CPP_COMMENT_NL», T.«RPAR», T.«_CPP_COMMENT_NL», T.«_CPP_COMMENT_NL», T.«_CPP_COMMENT_NL», T.«_CPP_COMMENT_NL», T.«_CPP_COMMENT_NL», T.«_CPP_COMMENT_NL», T.«_CPP_COMMENT_NL», T.«_CPP_COMMENT_NL»] [tk T.«AT» u0.text, tk T.«__ANON_2» u1.text, tk T.«LPAR» u2.text, tk T.«_CPP_COMMENT_NL» u3.text, tk T.«RPAR» u4.text, tk T.«_CPP_COMMENT_NL» u5.text, tk T.«_CPP_COMMENT_NL» u6.text, tk T.«_CPP_COMMENT_NL» u7.text, tk T.«_CPP_COMMENT_NL» u8.text, tk T.«_CPP_COMMENT_NL» u9.text, tk T.«_CPP_COMMENT_NL» u10.text, tk T.«_CPP_COMMENT_NL» u11.text, tk T.«_CPP_COMMENT_NL» u12.text] (u0 :: (u1 :: (u2 :: (u3 :: (u4 :: (u5 :: (u6 :: (u7 :: (u8 :: (u9 :: (u10 :: (u11 :: (u12 :: ([])))))))))))))) n := (.tok k0 (by decide) (.tok k1 (by decide) (.tok k2 (by decide) (.tok k3 (by decide) (.tok k4 (by decide) (.tok k5 (by decide) (.tok k6 (by decide) (.tok k7 (by decide) (.tok k8 (by decide) (.tok k9 (by decide) (.tok k10 (by decide) (.tok k11 (by decide) (.tok k12 (by decide) .nil))))))))))))); simpa only [List.append_assoc, List.nil_append, List.append_nil, List.cons_append, nextT_append, nextT_cons, nextT_nil] using this) (by simp only [keepKids', List.flatMap_cons, List.flatMap_nil, List.replicate_zero, List.replicate_succ, List.getElem?_cons_zero, List.getElem?_cons_succ, Bool.false_eq_true, if_true, if_false, List.append_nil, List.nil_append, List.cons_append, List.append_assoc, kidsOf_nd] <;> rfl)

theorem y_190 {n : Nat} {u0 : Tok} {u1 : Tok} {u2 : Tok} {c3 : Tree} {w3 : List Tok} {u4 : Tok} {u5 : Tok} (k0 : u0.type = T.«AT») (k1 : u1.type = T.«__ANON_2») (k2 : u2.type = T.«LPAR») (h3 : Y N.«value_brackets» c3 w3 u4.type) (k4 : u4.type = T.«_CPP_COMMENT_NL») (k5 : u5.type = T.«RPAR») :
    Y N.«decorator» (nd "decorator" (tk T.«__ANON_2» u1.text :: [c3])) (u0 :: (u1 :: (u2 :: (w3 ++ (u4 :: [u5]))))) n :=
  Y.node ⟨N.«decorator», [T.«AT», T.«__ANON_2», T.«LPAR», N.«value_brackets», T.«_CPP_COMMENT_NL», T.«RPAR»], "decorator", false, [(1, false, 0), (3, false, 0)], 0⟩ (by decide +kernel) rfl (by decide) (free_plain (by decide) (by decide)) (cs := [tk T.«AT» u0.text, tk T.«__ANON_2» u1.text, tk T.«LPAR» u2.text, c3, tk T.«_CPP_COMMENT_NL» u4.text, tk T.«RPAR» u5.text]) (by have : YL [T.«AT», T.«__ANON_2», T.«LPAR», N.«value_brackets», T.«_CPP_COMMENT_NL», T.«RPAR»] [tk T.«AT» u0.text, tk T.«__ANON_2» u1.text, tk T.«LPAR» u2.text, c3, tk T.«_CPP_COMMENT_NL» u4.text, tk T.«RPAR» u5.text] (u0 :: (u1 :: (u2 :: (w3 ++ (u4 :: (u5 :: ([]))))))) n := (.tok k0 (by decide) (.tok k1 (by decide) (.tok k2 (by decide) (.nt (by simpa only [List.append_assoc, List.nil_append, List.append_nil, List.cons_append, nextT_append, nextT_cons, nextT_nil] using h3) (.tok k4 (by decide) (.tok k5 (by decide) .nil)) (fun h h' => by first | exact absurd h (by decide) | exact absurd h' (by decide)))))); simpa only [List.append_assoc, List.nil_append, List.append_nil, List.cons_append, nextT_append, nextT_cons, nextT_nil] using this) (by simp only [keepKids', List.flatMap_cons, List.flatMap_nil, List.replicate_zero, List.replicate_succ, List.getElem?_cons_zero, List.getElem?_cons_succ, Bool.false_eq_true, if_true, if_false, List.append_nil, List.nil_append, List.cons_append, List.append_assoc, kidsOf_nd] <;> rfl)

theorem y_193 {n : Nat} {u0 : Tok} {u1 : Tok} {u2 : Tok} {c3 : Tree} {w3 : List Tok} {u4 : Tok} {u5 : Tok} {u6 : Tok} {u7 : Tok} {u8 : Tok} (k0 : u0.type = T.«AT») (k1 : u1.type = T.«__ANON_2») (k2 : u2.type = T.«LPAR») (h3 : Y N.«value_brackets» c3 w3 u4.type) (k4 : u4.type = T.«_CPP_COMMENT_NL») (k5 : u5.type = T.«RPAR») (k6 : u6.type = T.«_CPP_COMMENT_NL») (k7 : u7.type = T.«_CPP_COMMENT_NL») (k8 : u8.type = T.«_CPP_COMMENT_NL») :
    Y N.«decorator» (nd "decorator" (tk T.«__ANON_2» u1.text :: [c3])) (u0 :: (u1 :: (u2 :: (w3 ++ (u4 :: (u5 :: (u6 :: (u7 :: [u8])))))))) n :=
  Y.node ⟨N.«decorator», [T.«AT», T.«__ANON_2», T.«LPAR», N.«value_brackets», T.«_CPP_COMMENT_NL», T.«RPAR», T.«_CPP_COMMENT_NL», T.«_CPP_COMMENT_NL», T.«_CPP_COMMENT_NL»], "decorator", false, [(1, false, 0), (3, false, 0)], 0⟩ (by decide +kernel) rfl (by decide) (free_plain (by decide) (by decide)) (cs := [tk T.«AT» u0.text, tk T.«__ANON_2» u1.text, tk T.«LPAR» u2.text, c3, tk T.«_CPP_COMMENT_NL» u4.text, tk T.«RPAR» u5.text, tk T.«_CPP_COMMENT_NL» u6.text, tk T.«_CPP_COMMENT_NL» u7.text, tk T.«_CPP_COMMENT_NL» u8.text]) (by have : YL [T.«AT», T.«__ANON_2», T.«LPAR», N.«value_brackets», T.«_CPP_COMMENT_NL», T.«RPAR», T.«_CPP_COMMENT_NL», T.«_CPP_COMMENT_NL», T.«_CPP_COMMENT_NL»] [tk T.«AT» u0.text, tk T.«__ANON_2» u1.text, tk T.«LPAR» u2.text, c3, tk T.«_CPP_COMMENT_NL» u4.text, tk T.«RPAR» u5.text, tk T.«_CPP_COMMENT_NL» u6.text, tk T.«_CPP_COMMENT_NL» u7.text, tk T.«_CPP_COMMENT_NL» u8.text] (u0 :: (u1 :: (u2 :: (w3 ++ (u4 :: (u5 :: (u6 :: (u7 :: (u8 :: ([])))))))))) n := (.tok k0 (by decide) (.tok k1 (by decide) (.tok k2 (by decide) (.nt (by simpa only [List.append_assoc, List.nil_append, List.append_nil, List.cons_append, nextT_append, nextT_cons, nextT_nil] using h3) (.tok k4 (by decide) (.tok k5 (by decide) (.tok k6 (by decide) (.tok k7 (by decide) (.tok k8 (by decide) .nil))))) (fun h h' => by first | exact absurd h (by decide) | exact absurd h' (by decide)))))); simpa only [List.append_assoc, List.nil_append, List.append_nil, List.cons_append, nextT_append, nextT_cons, nextT_nil] using this) (by simp only [keepKids', List.flatMap_cons, List.flatMap_nil, List.replicate_zero, List.replicate_succ, List.getElem?_cons_zero, List.getElem?_cons_succ, Bool.false_eq_true, if_true, if_false, List.append_nil, List.nil_append, List.cons_append, List.append_assoc, kidsOf_nd] <;> rfl)

theorem y_196 {n : Nat} {u0 : Tok} {u1 : Tok} {u2 : Tok} {c3 : Tree} {w3 : List Tok} {u4 : Tok} {u5 : Tok} {u6 : Tok} {u7 : Tok} {u8 : Tok} {u9 : Tok} {u10 : Tok} {u11 : Tok} (k0 : u0.type = T.«AT») (k1 : u1.type = T.«__ANON_2») (k2 : u2.type = T.«LPAR») (h3 : Y N.«value_brackets» c3 w3 u4.type) (k4 : u4.type = T.«_CPP_COMMENT_NL») (k5 : u5.type = T.«RPAR») (k6 : u6.type = T.«_CPP_COMMENT_NL») (k7 : u7.type = T.«_CPP_COMMENT_NL») (k8 : u8.type = T.«_CPP_COMMENT_NL») (k9 : u9.type = T.«_CPP_COMMENT_NL») (k10 : u10.type = T.«_CPP_COMMENT_NL») (k11 : u11.type = T.«_CPP_COMMENT_NL») :
    Y N.«decorator» (nd "decorator" (tk T.«__ANON_2» u1.text :: [c3])) (u0 :: (u1 :: (u2 :: (w3 ++ (u4 :: (u5 :: (u6 :: (u7 :: (u8 :: (u9 :: (u10 :: [u11]))))))))))) n :=
  Y.node ⟨N.«decorator», [T.«AT», T.«__ANON_2», T.«LPAR», N.«value_brackets», T.«_CPP_COMMENT_NL», T.«RPAR», T.«_CPP_COMMENT_NL», T.«_CPP_COMMENT_NL», T.«_CPP_COMMENT_NL», T.«_CPP_COMMENT_NL», T.«_CPP_COMMENT_NL», T.«_CPP_COMMENT_NL»], "decorator", false, [(1, false, 0), (3, false, 0)], 0⟩ (by decide +kernel) rfl (by decide) (free_plain (by decide) (by decide)) (cs := [tk T.«AT» u0.text, tk T.«__ANON_2» u1.text, tk T.«LPAR» u2.text, c3, tk T.«_CPP_COMMENT_NL» u4.text, tk T.«RPAR» u5.text, tk T.«_CPP_COMMENT_NL» u6.text, tk T.«_CPP_COMMENT_NL» u7.text, tk T.«_CPP_COMMENT_NL» u8.text, tk T.«_CPP_COMMENT_NL» u9.text, tk T.«_CPP_COMMENT_NL» u10.text, tk T.«_CPP_COMMENT_NL» u11.text]) (by have : YL [T.«AT», T.«__ANON_2», T.«LPAR», N.«value_brackets», T.«_CPP_COMMENT_NL», T.«RPAR», T.«_CPP_COMMENT_NL», T.«_CPP_COMMENT_NL», T.«_CPP_COMMENT_NL», T.«_CPP_COMMENT_NL», T.«_CPP_COMMENT_NL», T.«_CPP_COMMENT_NL»] [tk T.«AT» u0.text, tk T.«__ANON_2» u1.text, tk T.«LPAR» u2.text, c3, tk T.«_CPP_COMMENT_NL» u4.text, tk T.«RPAR» u5.text, tk T.«_CPP_COMMENT_NL» u6.text, tk T.«_CPP_COMMENT_NL» u7.text, tk T.«_CPP_COMMENT_NL» u8.text, tk T.«_CPP_COMMENT_NL» u9.text, tk T.«_CPP_COMMENT_NL» u10.text, tk T.«_CPP_COMMENT_NL» u11.text] (u0 :: (u1 :: (u2 :: (w3 ++ (u4 :: (u5 :: (u6 :: (u7 :: (u8 :: (u9 :: (u10 :: (u11 :: ([]))))))))))))) n := (.tok k0 (by decide) (.tok k1 (by decide) (.tok k2 (by decide) (.nt (by simpa only [List.append_assoc, List.nil_append, List.append_nil, List.cons_append, nextT_append, nextT_cons, nextT_nil] using h3) (.tok k4 (by decide) (.tok k5 (by decide) (.tok k6 (by decide) (.tok k7 (by decide) (.tok k8 (by decide) (.tok k9 (by decide) (.tok k10 (by decide) (.tok k11 (by decide) .nil)))))))) (fun h h' => by first | exact absurd h (by decide) | exact absurd h' (by decide)))))); simpa only [List.append_assoc, List.nil_append, List.append_nil, List.cons_append, nextT_append, nextT_cons, nextT_nil] using this) (by simp only [keepKids', List.flatMap_cons, List.flatMap_nil, List.replicate_zero, List.replicate_succ, List.getElem?_cons_zero, List.getElem?_cons_succ, Bool.false_eq_true, if_true, if_false, List.append_nil, List.nil_append, List.cons_append, List.append_assoc, kidsOf_nd] <;> rfl)

theorem y_199 {n : Nat} {u0 : Tok} {u1 : Tok} {u2 : Tok} {c3 : Tree} {w3 : List Tok} {u4 : Tok} {u5 : Tok} {u6 : Tok} {u7 : Tok} {u8 : Tok} {u9 : Tok} {u10 : Tok} {u11 : Tok} {u12 : Tok} {u13 : Tok} {u14 : Tok} (k0 : u0.type = T.«AT») (k1 : u1.type = T.«__ANON_2») (k2 : u2.type = T.«LPAR») (h3 : Y N.«value_brackets» c3 w3 u4.type) (k4 : u4.type = T.«_CPP_COMMENT_NL») (k5 : u5.type = T.«RPAR») (k6 : u6.type = T.«_CPP_COMMENT_NL») (k7 : u7.type = T.«_CPP_COMMENT_NL») (k8 : u8.type = T.«_CPP_COMMENT_NL») (k9 : u9.type = T.«_CPP_COMMENT_NL») (k10 : u10.type = T.«_CPP_COMMENT_NL») (k11 : u11.type = T.«_CPP_COMMENT_NL») (k12 : u12.type = T.«_CPP_COMMENT_NL») (k13 : u13.type = T.«_CPP_COMMENT_NL») (k14 : u14.type = T.«_CPP_COMMENT_NL») :
    Y N.«decorator» (nd "decorator" (tk T.«__ANON_2» u1.text :: [c3])) (u0 :: (u1 :: (u2 :: (w3 ++ (u4 :: (u5 :: (u6 :: (u7 :: (u8 :: (u9 :: (u10 :: (u11 :: (u12 :: (u13 :: [u14])))))))))))))) n :=
  Y.node ⟨N.«decorator», [T.«AT», T.«__ANON_2», T.«LPAR», N.«value_brackets», T.«_CPP_COMMENT_NL», T.«RPAR», T.«_CPP_COMMENT_NL», T.«_CPP_COMMENT_NL», T.«_CPP_COMMENT_NL», T.«_CPP_COMMENT_NL», T.«_CPP_COMMENT_NL», T.«_CPP_COMMENT_NL», T.«_CPP_COMMENT_NL», T.«_CPP_COMMENT_NL», T.«_CPP_COMMENT_NL»], "decorator", false, [(1, false, 0), (3, false, 0)], 0⟩ (by decide +kernel) rfl (by decide) (free_plain (by decide) (by decide)) (cs := [tk T.«AT» u0.text, tk T.«__ANON_2» u1.text, tk T.«LPAR» u2.text, c3, tk T.«_CPP_COMMENT_NL» u4.text, tk T.«RPAR» u5.text, tk T.«_CPP_COMMENT_NL» u6.text, tk T.«_CPP_COMMENT_NL» u7.text, tk T.«_CPP_COMMENT_NL» u8.text, tk T.«_CPP_COMMENT_NL» u9.text, tk T.«_CPP_COMMENT_NL» u10.text, tk T.«_CPP_COMMENT_NL» u11.text, tk T.«_CPP_COMMENT_NL» u12.text, tk T.«_CPP_COMMENT_NL» u13.text, tk T.«_CPP_COMMENT_NL» u14.text]) (by have : YL [T.«AT», T.«__ANON_2», T.«LPAR», N.«value_brackets», T.«_CPP_COMMENT_NL», T.«RPAR», T.«_CPP_COMMENT_NL», T.«_CPP_COMMENT_NL», T.«_CPP_COMMENT_NL», T.«_CPP_COMMENT_NL», T.«_CPP_COMMENT_NL», T.«_CPP_COMMENT_NL», T.«_CPP_COMMENT_NL», T.«_CPP_COMMENT_NL», T.«_CPP_COMMENT_NL»] [tk T.«AT» u0.text, tk T.«__ANON_2» u1.text, tk T.«LPAR» u2.text, c3, tk T.«_CPP_COMMENT_NL» u4.text, tk T.«RPAR» u5.text, tk T.«_CPP_COMMENT_NL» u6.text, tk T.«_CPP_COMMENT_NL» u7.text, tk T.«_CPP_COMMENT_NL» u8.text, tk T.«_CPP_COMMENT_NL» u9.text, tk T.«_CPP_COMMENT_NL» u10.text, tk T.«_CPP_COMMENT_NL» u11.text, tk T.«_CPP_COMMENT_NL» u12.text, tk T.«_CPP_COMMENT_NL» u13.text, tk T.«_CPP_COMMENT_NL» u14.text] (u0 :: (u1 :: (u2 :: (w3 ++ (u4 :: (u5 :: (u6 :: (u7 :: (u8 :: (u9 :: (u10 :: (u11 :: (u12 :: (u13 :: (u14 :: ([])))))))))))))))) n := (.tok k0 (by decide) (.tok k1 (by decide) (.tok k2 (by decide) (.nt (by simpa only [List.append_assoc, List.nil_append, List.append_nil, List.cons_append, nextT_append, nextT_cons, nextT_nil] using h3) (.tok k4 (by decide) (.tok k5 (by decide) (.tok k6 (by decide) (.tok k7 (by decide) (.tok k8 (by decide) (.tok k9 (by decide) (.tok k10 (by decide) (.tok k11 (by decide) (.tok k12 (by decide) (.tok k13 (by decide) (.tok k14 (by decide) .nil))))))))))) (fun h h' => by first | exact absurd h (by decide) | exact absurd h' (by decide)))))); simpa only [List.append_assoc, List.nil_append, List.append_nil, List.cons_append, nextT_append, nextT_cons, nextT_nil] using this) (by simp only [keepKids', List.flatMap_cons, List.flatMap_nil, List.replicate_zero, List.replicate_succ, List.getElem?_cons_zero, List.getElem?_cons_succ, Bool.false_eq_true, if_true, if_false, List.append_nil, List.nil_append, List.cons_append, List.append_assoc, kidsOf_nd] <;> rfl)

theorem y_202 {n : Nat} {u0 : Tok} {u1 : Tok} {u2 : Tok} {c3 : Tree} {w3 : List Tok} {u4 : Tok} {u5 : Tok} (k0 : u0.type = T.«AT») (k1 : u1.type = T.«__ANON_2») (k2 : u2.type = T.«LPAR») (h3 : Y N.«value_brackets» c3 w3 u4.type) (k4 : u4.type = T.«RPAR») (k5 : u5.type = T.«_CPP_COMMENT_NL») :
    Y N.«decorator» (nd "decorator" (tk T.«__ANON_2» u1.text :: [c3])) (u0 :: (u1 :: (u2 :: (w3 ++ (u4 :: [u5]))))) n :=
  Y.node ⟨N.«decorator», [T.«AT», T.«__ANON_2», T.«LPAR», N.«value_brackets», T.«RPAR», T.«_CPP_COMMENT_NL»], "decorator", false, [(1, false, 0), (3, false, 0)], 0⟩ (by decide +kernel) rfl (by decide) (free_plain (by decide) (by decide)) (cs := [tk T.«AT» u0.text, tk T.«__ANON_2» u1.text, tk T.«LPAR» u2.text, c3, tk T.«RPAR» u4.text, tk T.«_CPP_COMMENT_NL» u5.text]) (by have : YL [T.«AT», T.«__ANON_2», T.«LPAR», N.«value_brackets», T.«RPAR», T.«_CPP_COMMENT_NL»] [tk T.«AT» u0.text, tk T.«__ANON_2» u1.text, tk T.«LPAR» u2.text, c3, tk T.«RPAR» u4.text, tk T.«_CPP_COMMENT_NL» u5.text] (u0 :: (u1 :: (u2 :: (w3 ++ (u4 :: (u5 :: ([]))))))) n := (.tok k0 (by decide) (.tok k1 (by decide) (.tok k2 (by decide) (.nt (by simpa only [List.append_assoc, List.nil_append, List.append_nil, List.cons_append, nextT_append, nextT_cons, nextT_nil] using h3) (.tok k4 (by decide) (.tok k5 (by decide) .nil)) (fun h h' => by first | exact absurd h (by decide) | exact absurd h' (by decide)))))); simpa only [List.append_assoc, List.nil_append, List.append_nil, List.cons_append, nextT_append, nextT_cons, nextT_nil] using this) (by simp only [keepKids', List.flatMap_cons, List.flatMap_nil, List.replicate_zero, List.replicate_succ, List.getElem?_cons_zero, List.getElem?_cons_succ, Bool.false_eq_true, if_true, if_false, List.append_nil, List.nil_append, List.cons_append, List.append_assoc, kidsOf_nd] <;> rfl)

theorem y_205 {n : Nat} {u0 : Tok} {u1 : Tok} {u2 : Tok} {c3 : Tree} {w3 : List Tok} {u4 : Tok} {u5 : Tok} {u6 : Tok} {u7 : Tok} {u8 : Tok} (k0 : u0.type = T.«AT») (k1 : u1.type = T.«__ANON_2») (k2 : u2.type = T.«LPAR») (h3 : Y N.«value_brackets» c3 w3 u4.type) (k4 : u4.type = T.«RPAR») (k5 : u5.type = T.«_CPP_COMMENT_NL») (k6 : u6.type = T.«_CPP_COMMENT_NL») (k7 : u7.type = T.«_CPP_COMMENT_NL») (k8 : u8.type = T.«_CPP_COMMENT_NL») :
    Y N.«decorator» (nd "decorator" (tk T.«__ANON_2» u1.text :: [c3])) (u0 :: (u1 :: (u2 :: (w3 ++ (u4 :: (u5 :: (u6 :: (u7 :: [u8])))))))) n :=
  Y.node ⟨N.«decorator», [T.«AT», T.«__ANON_2», T.«LPAR», N.«value_brackets», T.«RPAR», T.«_CPP_COMMENT_NL», T.«_CPP_COMMENT_NL», T.«_CPP_COMMENT_NL», T.«_CPP_COMMENT_NL»], "decorator", false, [(1, false, 0), (3, false, 0)], 0⟩ (by decide +kernel) rfl (by decide) (free_plain (by decide) (by decide)) (cs := [tk T.«AT» u0.text, tk T.«__ANON_2» u1.text, tk T.«LPAR» u2.text, c3, tk T.«RPAR» u4.text, tk T.«_CPP_COMMENT_NL» u5.text, tk T.«_CPP_COMMENT_NL» u6.text, tk T.«_CPP_COMMENT_NL» u7.text, tk T.«_CPP_COMMENT_NL» u8.text]) (by have : YL [T.«AT», T.«__ANON_2», T.«LPAR», N.«value_brackets», T.«RPAR», T.«_CPP_COMMENT_NL», T.«_CPP_COMMENT_NL», T.«_CPP_COMMENT_NL», T.«_CPP_COMMENT_NL»] [tk T.«AT» u0.text, tk T.«__ANON_2» u1.text, tk T.«LPAR» u2.text, c3, tk T.«RPAR» u4.text, tk T.«_CPP_COMMENT_NL» u5.text, tk T.«_CPP_COMMENT_NL» u6.text, tk T.«_CPP_COMMENT_NL» u7.text, tk T.«_CPP_COMMENT_NL» u8.text] (u0 :: (u1 :: (u2 :: (w3 ++ (u4 :: (u5 :: (u6 :: (u7 :: (u8 :: ([])))))))))) n := (.tok k0 (by decide) (.tok k1 (by decide) (.tok k2 (by decide) (.nt (by simpa only [List.append_assoc, List.nil_append, List.append_nil, List.cons_append, nextT_append, nextT_cons, nextT_nil] using h3) (.tok k4 (by decide) (.tok k5 (by decide) (.tok k6 (by decide) (.tok k7 (by decide) (.tok k8 (by decide) .nil))))) (fun h h' => by first | exact absurd h (by decide) | exact absurd h' (by decide)))))); simpa only [List.append_assoc, List.nil_append, List.append_nil, List.cons_append, nextT_append, nextT_cons, nextT_nil] using this) (by simp only [keepKids', List.flatMap_cons, List.flatMap_nil, List.replicate_zero, List.replicate_succ, List.getElem?_cons_zero, List.getElem?_cons_succ, Bool.false_eq_true, if_true, if_false, List.append_nil, List.nil_append, List.cons_append, List.append_assoc, kidsOf_nd] <;> rfl)

theorem y_208 {n : Nat} {u0 : Tok} {u1 : Tok} {u2 : Tok} {c3 : Tree} {w3 : List Tok} {u4 : Tok} {u5 : Tok} {u6 : Tok} {u7 : Tok} {u8 : Tok} {u9 : Tok} {u10 : Tok} {u11 : Tok} (k0 : u0.type = T.«AT») (k1 : u1.type = T.«__ANON_2») (k2 : u2.type = T.«LPAR») (h3 : Y N.«value_brackets» c3 w3 u4.type) (k4 : u4.type = T.«RPAR») (k5 : u5.type = T.«_CPP_COMMENT_NL») (k6 : u6.type = T.«_CPP_COMMENT_NL») (k7 : u7.type = T.«_CPP_COMMENT_NL») (k8 : u8.type = T.«_CPP_COMMENT_NL») (k9 : u9.type = T.«_CPP_COMMENT_NL») (k10 : u10.type = T.«_CPP_COMMENT_NL») (k11 : u11.type = T.«_CPP_COMMENT_NL») :
    Y N.«decorator» (nd "decorator" (tk T.«__ANON_2» u1.text :: [c3])) (u0 :: (u1 :: (u2 :: (w3 ++ (u4 :: (u5 :: (u6 :: (u7 :: (u8 :: (u9 :: (u10 :: [u11]))))))))))) n :=
  Y.node ⟨N.«decorator», [T.«AT», T.«__ANON_2», T.«LPAR», N.«value_brackets», T.«RPAR», T.«_CPP_COMMENT_NL», T.«_CPP_COMMENT_NL», T.«_CPP_COMMENT_NL», T.«_CPP_COMMENT_NL», T.«_CPP_COMMENT_NL», T.«_CPP_COMMENT_NL», T.«_CPP_COMMENT_NL»], "decorator", false, [(1, false, 0), (3, false, 0)], 0⟩ (by decide +kernel) rfl (by decide) (free_plain (by decide) (by decide)) (cs := [tk T.«AT» u0.text, tk T.«__ANON_2» u1.text, tk T.«LPAR» u2.text, c3, tk T.«RPAR» u4.text, tk T.«_CPP_COMMENT_NL» u5.text, tk T.«_CPP_COMMENT_NL» u6.text, tk T.«_CPP_COMMENT_NL» u7.text, tk T.«_CPP_COMMENT_NL» u8.text, tk T.«_CPP_COMMENT_NL» u9.text, tk T.«_CPP_COMMENT_NL» u10.text, tk T.«_CPP_COMMENT_NL» u11.text]) (by have : YL [T.«AT», T.«__ANON_2», T.«LPAR», N.«value_brackets», T.«RPAR», T.«_CPP_COMMENT_NL», T.«_CPP_COMMENT_NL», T.«_CPP_COMMENT_NL», T.«_CPP_COMMENT_NL», T.«_CPP_COMMENT_NL», T.«_CPP_COMMENT_NL», T.«_CPP_COMMENT_NL»] [tk T.«AT» u0.text, tk T.«__ANON_2» u1.text, tk T.«LPAR» u2.text, c3, tk T.«RPAR» u4.text, tk T.«_CPP_COMMENT_NL» u5.text, tk T.«_CPP_COMMENT_NL» u6.text, tk T.«_CPP_COMMENT_NL» u7.text, tk T.«_CPP_COMMENT_NL» u8.text, tk T.«_CPP_COMMENT_NL» u9.text, tk T.«_CPP_COMMENT_NL» u10.text, tk T.«_CPP_COMMENT_NL» u11.text] (u0 :: (u1 :: (u2 :: (w3 ++ (u4 :: (u5 :: (u6 :: (u7 :: (u8 :: (u9 :: (u10 :: (u11 :: ([]))))))))))))) n := (.tok k0 (by decide) (.tok k1 (by decide) (.tok k2 (by decide) (.nt (by simpa only [List.append_assoc, List.nil_append, List.append_nil, List.cons_append, nextT_append, nextT_cons, nextT_nil] using h3) (.tok k4 (by decide) (.tok k5 (by decide) (.tok k6 (by decide) (.tok k7 (by decide) (.tok k8 (by decide) (.tok k9 (by decide) (.tok k10 (by decide) (.tok k11 (by decide) .nil)))))))) (fun h h' => by first | exact absurd h (by decide) | exact absurd h' (by decide)))))); simpa only [List.append_assoc, List.nil_append, List.append_nil, List.cons_append, nextT_append, nextT_cons, nextT_nil] using this) (by simp only [keepKids', List.flatMap_cons, List.flatMap_nil, List.replicate_zero, List.replicate_succ, List.getElem?_cons_zero, List.getElem?_cons_succ, Bool.false_eq_true, if_true, if_false, List.append_nil, List.nil_append, List.cons_append, List.append_assoc, kidsOf_nd] <;> rfl)

theorem y_211 {n : Nat} {u0 : Tok} {u1 : Tok} {u2 : Tok} {c3 : Tree} {w3 : List Tok} {u4 : Tok} {u5 : Tok} {u6 : Tok} {u7 : Tok} {u8 : Tok} {u9 : Tok} {u10 : Tok} {u11 : Tok} {u12 : Tok} {u13 : Tok} {u14 : Tok} (k0 : u0.type = T.«AT») (k1 : u1.type = T.«__ANON_2») (k2 : u2.type = T.«LPAR») (h3 : Y N.«value_brackets» c3 w3 u4.type) (k4 : u4.type = T.«RPAR») (k5 : u5.type = T.«_CPP_COMMENT_NL») (k6 : u6.type = T.«_CPP_COMMENT_NL») (k7 : u7.type = T.«_CPP_COMMENT_NL») (k8 : u8.type = T.«_CPP_COMMENT_NL») (k9 : u9.type = T.«_CPP_COMMENT_NL») (k10 : u10.type = T.«_CPP_COMMENT_NL») (k11 : u11.type = T.«_CPP_COMMENT_NL») (k12 : u12.type = T.«_CPP_COMMENT_NL») (k13 : u13.type = T.«_CPP_COMMENT_NL») (k14 : u14.type = T.«_CPP_COMMENT_NL») :
    Y N.«decorator» (nd "decorator" (tk T.«__ANON_2» u1.text :: [c3])) (u0 :: (u1 :: (u2 :: (w3 ++ (u4 :: (u5 :: (u6 :: (u7 :: (u8 :: (u9 :: (u10 :: (u11 :: (u12 :: (u13 :: [u14])))))))))))))) n :=
  Y.node ⟨N.«decorator», [T.«AT», T.«__ANON_2», T.«LPAR», N.«value_brackets», T.«RPAR», T.«_CPP_COMMENT_NL», T.«_CPP_COMMENT_NL», T.«_CPP_COMMENT_NL», T.«_CPP_COMMENT_NL», T.«_CPP_COMMENT_NL», T.«_CPP_COMMENT_NL», T.«_CPP_COMMENT_NL», T.«_CPP_COMMENT_NL», T.«_CPP_COMMENT_NL», T.«_CPP_COMMENT_NL»], "decorator", false, [(1, false, 0), (3, false, 0)], 0⟩ (by decide +kernel) rfl (by decide) (free_plain (by decide) (by decide)) (cs := [tk T.«AT» u0.text, tk T.«__ANON_2» u1.text, tk T.«LPAR» u2.text, c3, tk T.«RPAR» u4.text, tk T.«_CPP_COMMENT_NL» u5.text, tk T.«_CPP_COMMENT_NL» u6.text, tk T.«_CPP_COMMENT_NL» u7.text, tk T.«_CPP_COMMENT_NL» u8.text, tk T.«_CPP_COMMENT_NL» u9.text, tk T.«_CPP_COMMENT_NL» u10.text, tk T.«_CPP_COMMENT_NL» u11.text, tk T.«_CPP_COMMENT_NL» u12.text, tk T.«_CPP_COMMENT_NL» u13.text, tk T.«_CPP_COMMENT_NL» u14.text]) (by have : YL [T.«AT», T.«__ANON_2», T.«LPAR», N.«value_brackets», T.«RPAR», T.«_CPP_COMMENT_NL», T.«_CPP_COMMENT_NL», T.«_CPP_COMMENT_NL», T.«_CPP_COMMENT_NL», T.«_CPP_COMMENT_NL», T.«_CPP_COMMENT_NL», T.«_CPP_COMMENT_NL», T.«_CPP_COMMENT_NL», T.«_CPP_COMMENT_NL», T.«_CPP_COMMENT_NL»] [tk T.«AT» u0.text, tk T.«__ANON_2» u1.text, tk T.«LPAR» u2.text, c3, tk T.«RPAR» u4.text, tk T.«_CPP_COMMENT_NL» u5.text, tk T.«_CPP_COMMENT_NL» u6.text, tk T.«_CPP_COMMENT_NL» u7.text, tk T.«_CPP_COMMENT_NL» u8.text, tk T.«_CPP_COMMENT_NL» u9.text, tk T.«_CPP_COMMENT_NL» u10.text, tk T.«_CPP_COMMENT_NL» u11.text, tk T.«_CPP_COMMENT_NL» u12.text, tk T.«_CPP_COMMENT_NL» u13.text, tk T.«_CPP_COMMENT_NL» u14.text] (u0 :: (u1 :: (u2 :: (w3 ++ (u4 :: (u5 :: (u6 :: (u7 :: (u8 :: (u9 :: (u10 :: (u11 :: (u12 :: (u13 :: (u14 :: ([])))))))))))))))) n := (.tok k0 (by decide) (.tok k1 (by decide) (.tok k2 (by decide) (.nt (by simpa only [List.append_assoc, List.nil_append, List.append_nil, List.cons_append, nextT_append, nextT_cons, nextT_nil] using h3) (.tok k4 (by decide) (.tok k5 (by decide) (.tok k6 (by decide) (.tok k7 (by decide) (.tok k8 (by decide) (.tok k9 (by decide) (.tok k10 (by decide) (.tok k11 (by decide) (.tok k12 (by decide) (.tok k13 (by decide) (.tok k14 (by decide) .nil))))))))))) (fun h h' => by first | exact absurd h (by decide) | exact absurd h' (by decide)))))); simpa only [List.append_assoc, List.nil_append, List.append_nil, List.cons_append, nextT_append, nextT_cons, nextT_nil] using this) (by simp only [keepKids', List.flatMap_cons, List.flatMap_nil, List.replicate_zero, List.replicate_succ, List.getElem?_cons_zero, List.getElem?_cons_succ, Bool.false_eq_true, if_true, if_false, List.append_nil, List.nil_append, List.cons_append, List.append_assoc, kidsOf_nd] <;> rfl)

theorem y_214 {n : Nat} {u0 : Tok} {u1 : Tok} {u2 : Tok} {u3 : Tok} {u4 : Tok} {u5 : Tok} (k0 : u0.type = T.«AT») (k1 : u1.type = T.«__ANON_2») (k2 : u2.type = T.«LPAR») (k3 : u3.type = T.«RPAR») (k4 : u4.type = T.«_CPP_COMMENT_NL») (k5 : u5.type = T.«_CPP_COMMENT_NL») :
    Y N.«decorator» (nd "decorator" [tk T.«__ANON_2» u1.text]) (u0 :: (u1 :: (u2 :: (u3 :: (u4 :: [u5]))))) n :=
  Y.node ⟨N.«decorator», [T.«AT», T.«__ANON_2», T.«LPAR», T.«RPAR», T.«_CPP_COMMENT_NL», T.«_CPP_COMMENT_NL»], "decorator", false, [(1, false, 0)], 0⟩ (by decide +kernel) rfl (by decide) (free_plain (by decide) (by decide)) (cs := [tk T.«AT» u0.text, tk T.«__ANON_2» u1.text, tk T.«LPAR» u2.text, tk T.«RPAR» u3.text, tk T.«_CPP_COMMENT_NL» u4.text, tk T.«_CPP_COMMENT_NL» u5.text]) (by have : YL [T.«AT», T.«__ANON_2», T.«LPAR», T.«RPAR», T.«_CPP_COMMENT_NL», T.«_CPP_COMMENT_NL»] [tk T.«AT» u0.text, tk T.«__ANON_2» u1.text, tk T.«LPAR» u2.text, tk T.«RPAR» u3.text, tk T.«_CPP_COMMENT_NL» u4.text, tk T.«_CPP_COMMENT_NL» u5.text] (u0 :: (u1 :: (u2 :: (u3 :: (u4 :: (u5 :: ([]))))))) n := (.tok k0 (by decide) (.tok k1 (by decide) (.tok k2 (by decide) (.tok k3 (by decide) (.tok k4 (by decide) (.tok k5 (by decide) .nil)))))); simpa only [List.append_assoc, List.nil_append, List.append_nil, List.cons_append, nextT_append, nextT_cons, nextT_nil] using this) (by simp only [keepKids', List.flatMap_cons, List.flatMap_nil, List.replicate_zero, List.replicate_succ, List.getElem?_cons_zero, List.getElem?_cons_succ, Bool.false_eq_true, if_true, if_false, List.append_nil, List.nil_append, List.cons_append, List.append_assoc, kidsOf_nd] <;> rfl)

theorem y_217 {n : Nat} {u0 : Tok} {u1 : Tok} {u2 : Tok} {u3 : Tok} {u4 : Tok} {u5 : Tok} {u6 : Tok} {u7 : Tok} {u8 : Tok} (k0 : u0.type = T.«AT») (k1 : u1.type = T.«__ANON_2») (k2 : u2.type = T.«LPAR») (k3 : u3.type = T.«RPAR») (k4 : u4.type = T.«_CPP_COMMENT_NL») (k5 : u5.type = T.«_CPP_COMMENT_NL») (k6 : u6.type = T.«_CPP_COMMENT_NL») (k7 : u7.type = T.«_CPP_COMMENT_NL») (k8 : u8.type = T.«_CPP_COMMENT_NL») :
    Y N.«decorator» (nd "decorator" [tk T.«__ANON_2» u1.text]) (u0 :: (u1 :: (u2 :: (u3 :: (u4 :: (u5 :: (u6 :: (u7 :: [u8])))))))) n :=
  Y.node ⟨N.«decorator», [T.«AT», T.«__ANON_2», T.«LPAR», T.«RPAR», T.«_CPP_COMMENT_NL», T.«_CPP_COMMENT_NL», T.«_CPP_COMMENT_NL», T.«_CPP_COMMENT_NL», T.«_CPP_COMMENT_NL»], "decorator", false, [(1, false, 0)], 0⟩ (by decide +kernel) rfl (by decide) (free_plain (by decide) (by decide)) (cs := [tk T.«AT» u0.text, tk T.«__ANON_2» u1.text, tk T.«LPAR» u2.text, tk T.«RPAR» u3.text, tk T.«_CPP_COMMENT_NL» u4.text, tk T.«_CPP_COMMENT_NL» u5.text, tk T.«_CPP_COMMENT_NL» u6.text, tk T.«_CPP_COMMENT_NL» u7.text, tk T.«_CPP_COMMENT_NL» u8.text]) (by have : YL [T.«AT», T.«__ANON_2», T.«LPAR», T.«RPAR», T.«_CPP_COMMENT_NL», T.«_CPP_COMMENT_NL», T.«_CPP_COMMENT_NL», T.«_CPP_COMMENT_NL», T.«_CPP_COMMENT_NL»] [tk T.«AT» u0.text, tk T.«__ANON_2» u1.text, tk T.«LPAR» u2.text, tk T.«RPAR» u3.text, tk T.«_CPP_COMMENT_NL» u4.text, tk T.«_CPP_COMMENT_NL» u5.text, tk T.«_CPP_COMMENT_NL» u6.text, tk T.«_CPP_COMMENT_NL» u7.text, tk T.«_CPP_COMMENT_NL» u8.text] (u0 :: (u1 :: (u2 :: (u3 :: (u4 :: (u5 :: (u6 :: (u7 :: (u8 :: ([])))))))))) n := (.tok k0 (by decide) (.tok k1 (by decide) (.tok k2 (by decide) (.tok k3 (by decide) (.tok k4 (by decide) (.tok k5 (by decide) (.tok k6 (by decide) (.tok k7 (by decide) (.tok k8 (by decide) .nil))))))))); simpa only [List.append_assoc, List.nil_append, List.append_nil, List.cons_append, nextT_append, nextT_cons, nextT_nil] using this) (by simp only [keepKids', List.flatMap_cons, List.flatMap_nil, List.replicate_zero, List.replicate_succ, List.getElem?_cons_zero, List.getElem?_cons_succ, Bool.false_eq_true, if_true, if_false, List.append_nil, List.nil_append, List.cons_append, List.append_assoc, kidsOf_nd] <;> rfl)

theorem y_220 {n : Nat} {u0 : Tok} {u1 : Tok} {u2 : Tok} {u3 : Tok} {u4 : Tok} {u5 : Tok} {u6 : Tok} {u7 : Tok} {u8 : Tok} {u9 : Tok} {u10 : Tok} {u11 : Tok} (k0 : u0.type = T.«AT») (k1 : u1.type = T.«__ANON_2») (k2 : u2.type = T.«LPAR») (k3 : u3.type = T.«RPAR») (k4 : u4.type = T.«_CPP_COMMENT_NL») (k5 : u5.type = T.«_CPP_COMMENT_NL») (k6 : u6.type = T.«_CPP_COMMENT_NL») (k7 : u7.type = T.«_CPP_COMMENT_NL») (k8 : u8.type = T.«_CPP_COMMENT_NL») (k9 : u9.type = T.«_CPP_COMMENT_NL») (k10 : u10.type = T.«_CPP_COMMENT_NL») (k11 : u11.type = T.«_CPP_COMMENT_NL») :
    Y N.«decorator» (nd "decorator" [tk T.«__ANON_2» u1.text]) (u0 :: (u1 :: (u2 :: (u3 :: (u4 :: (u5 :: (u6 :: (u7 :: (u8 :: (u9 :: (u10 :: [u11]))))))))))) n :=
  Y.node ⟨N.«decorator», [T.«AT», T.«__ANON_2», T.«LPAR», T.«RPAR», T.«_CPP_COMMENT_NL», T.«_CPP_COMMENT_NL», T.«_CPP_COMMENT_NL», T.«_CPP_COMMENT_NL», T.«_CPP_COMMENT_NL», T.«_CPP_COMMENT_NL», T.«_CPP_COMMENT_NL», T.«_CPP_COMMENT_NL»], "decorator", false, [(1, false, 0)], 0⟩ (by decide +kernel) rfl (by decide) (free_plain (by decide) (by decide)) (cs := [tk T.«AT» u0.text, tk T.«__ANON_2» u1.text, tk T.«LPAR» u2.text, tk T.«RPAR» u3.text, tk T.«_CPP_COMMENT_NL» u4.text, tk T.«_CPP_COMMENT_NL» u5.text, tk T.«_CPP_COMMENT_NL» u6.text, tk T.«_CPP_COMMENT_NL» u7.text, tk T.«_CPP_COMMENT_NL» u8.text, tk T.«_CPP_COMMENT_NL» u9.text, tk T.«_CPP_COMMENT_NL» u10.text, tk T.«_CPP_COMMENT_NL» u11.text]) (by have : YL [T.«AT», T.«__ANON_2», T.«LPAR», T.«RPAR», T.«_CPP_COMMENT_NL», T.«_CPP_COMMENT_NL», T.«_CPP_COMMENT_NL», T.«_CPP_COMMENT_NL», T.«_CPP_COMMENT_NL», T.«_CPP_COMMENT_NL», T.«_CPP_COMMENT_NL», T.«_CPP_COMMENT_NL»] [tk T.«AT» u0.text, tk T.«__ANON_2» u1.text, tk T.«LPAR» u2.text, tk T.«RPAR» u3.text, tk T.«_CPP_COMMENT_NL» u4.text, tk T.«_CPP_COMMENT_NL» u5.text, tk T.«_CPP_COMMENT_NL» u6.text, tk T.«_CPP_COMMENT_NL» u7.text, tk T.«_CPP_COMMENT_NL» u8.text, tk T.«_CPP_COMMENT_NL» u9.text, tk T.«_CPP_COMMENT_NL» u10.text, tk T.«_CPP_COMMENT_NL» u11.text] (u0 :: (u1 :: (u2 :: (u3 :: (u4 :: (u5 :: (u6 :: (u7 :: (u8 :: (u9 :: (u10 :: (u11 :: ([]))))))))))))) n := (.tok k0 (by decide) (.tok k1 (by decide) (.tok k2 (by decide) (.tok k3 (by decide) (.tok k4 (by decide) (.tok k5 (by decide) (.tok k6 (by decide) (.tok k7 (by decide) (.tok k8 (by decide) (.tok k9 (by decide) (.tok k10 (by decide) (.tok k11 (by decide) .nil)))))))))))); simpa only [List.append_assoc, List.nil_append, List.append_nil, List.cons_append, nextT_append, nextT_cons, nextT_nil] using this) (by simp only [keepKids', List.flatMap_cons, List.flatMap_nil, List.replicate_zero, List.replicate_succ, List.getElem?_cons_zero, List.getElem?_cons_succ, Bool.false_eq_true, if_true, if_false, List.append_nil, List.nil_append, List.cons_append, List.append_assoc, kidsOf_nd] <;> rfl)

theorem y_223 {n : Nat} {t0 : List Tree} {w0 : List Tok} (h0 : Y N.«__decorators_plus_11» (nd "__decorators_plus_11" t0) w0 n) :
    Y N.«decorators» (nd "decorators" t0) w0 n :=
  Y.node ⟨N.«decorators», [N.«__decorators_plus_11»], "decorators", false, [(0, true, 0)], 0⟩ (by decide +kernel) rfl (by decide) (free_plain (by decide) (by decide)) (cs := [nd "__decorators_plus_11" t0]) (by have : YL [N.«__decorators_plus_11»] [nd "__decorators_plus_11" t0] (w0 ++ ([])) n := (.nt (by simpa only [List.append_assoc, List.nil_append, List.append_nil, List.cons_append, nextT_append, nextT_cons, nextT_nil] using h0) .nil (fun h h' => by first | exact absurd h (by decide) | exact absurd h' (by decide))); simpa only [List.append_assoc, List.nil_append, List.append_nil, List.cons_append, nextT_append, nextT_cons, nextT_nil] using this) (by simp only [keepKids', List.flatMap_cons, List.flatMap_nil, List.replicate_zero, List.replicate_succ, List.getElem?_cons_zero, List.getElem?_cons_succ, Bool.false_eq_true, if_true, if_false, List.append_nil, List.nil_append, List.cons_append, List.append_assoc, kidsOf_nd] <;> rfl)

theorem y_226 {n : Nat} {u0 : Tok} {u1 : Tok} {c2 : Tree} {w2 : List Tok} {u3 : Tok} {u4 : Tok} (k0 : u0.type = T.«FUNCTION») (k1 : u1.type = T.«_CPP_COMMENT_NL») (h2 : Y N.«value_brackets» c2 w2 u3.type) (k3 : u3.type = T.«_CPP_COMMENT_NL») (k4 : u4.type = T.«RPAR») :
    Y N.«function» (nd "function" (tk T.«FUNCTION» u0.text :: [c2])) (u0 :: (u1 :: (w2 ++ (u3 :: [u4])))) n :=
  Y.node ⟨N.«function», [T.«FUNCTION», T.«_CPP_COMMENT_NL», N.«value_brackets», T.«_CPP_COMMENT_NL», T.«RPAR»], "function", false, [(0, false, 0), (2, false, 0)], 0⟩ (by decide +kernel) rfl (by decide) (free_plain (by decide) (by decide)) (cs := [tk T.«FUNCTION» u0.text, tk T.«_CPP_COMMENT_NL» u1.text, c2, tk T.«_CPP_COMMENT_NL» u3.text, tk T.«RPAR» u4.text]) (by have : YL [T.«FUNCTION», T.«_CPP_COMMENT_NL», N.«value_brackets», T.«_CPP_COMMENT_NL», T.«RPAR»] [tk T.«FUNCTION» u0.text, tk T.«_CPP_COMMENT_NL» u1.text, c2, tk T.«_CPP_COMMENT_NL» u3.text, tk T.«RPAR» u4.text] (u0 :: (u1 :: (w2 ++ (u3 :: (u4 :: ([])))))) n := (.tok k0 (by decide) (.tok k1 (by decide) (.nt (by simpa only [List.append_assoc, List.nil_append, List.append_nil, List.cons_append, nextT_append, nextT_cons, nextT_nil] using h2) (.tok k3 (by decide) (.tok k4 (by decide) .nil)) (fun h h' => by first | exact absurd h (by decide) | exact absurd h' (by decide))))); simpa only [List.append_assoc, List.nil_append, List.append_nil, List.cons_append, nextT_append, nextT_cons, nextT_nil] using this) (by simp only [keepKids', List.flatMap_cons, List.flatMap_nil, List.replicate_zero, List.replicate_succ, List.getElem?_cons_zero, List.getElem?_cons_succ, Bool.false_eq_true, if_true, if_false, List.append_nil, List.nil_append, List.cons_append, List.append_assoc, kidsOf_nd] <;> rfl)

theorem y_229 {n : Nat} {u0 : Tok} {u1 : Tok} {t2 : List Tree} {w2 : List Tok} {u3 : Tok} (k0 : u0.type = T.«FUNCTION») (k1 : u1.type = T.«_CPP_COMMENT_NL») (h2 : Y N.«__function_star_12» (nd "__function_star_12" t2) w2 u3.type) (k3 : u3.type = T.«RPAR») :
    Y N.«function» (nd "function" (tk T.«FUNCTION» u0.text :: t2)) (u0 :: (u1 :: (w2 ++ [u3]))) n :=
  Y.node ⟨N.«function», [T.«FUNCTION», T.«_CPP_COMMENT_NL», N.«__function_star_12», T.«RPAR»], "function", false, [(0, false, 0), (2, true, 0)], 0⟩ (by decide +kernel) rfl (by decide) (free_plain (by decide) (by decide)) (cs := [tk T.«FUNCTION» u0.text, tk T.«_CPP_COMMENT_NL» u1.text, nd "__function_star_12" t2, tk T.«RPAR» u3.text]) (by have : YL [T.«FUNCTION», T.«_CPP_COMMENT_NL», N.«__function_star_12», T.«RPAR»] [tk T.«FUNCTION» u0.text, tk T.«_CPP_COMMENT_NL» u1.text, nd "__function_star_12" t2, tk T.«RPAR» u3.text] (u0 :: (u1 :: (w2 ++ (u3 :: ([]))))) n := (.tok k0 (by decide) (.tok k1 (by decide) (.nt (by simpa only [List.append_assoc, List.nil_append, List.append_nil, List.cons_append, nextT_append, nextT_cons, nextT_nil] using h2) (.tok k3 (by decide) .nil) (fun h h' => by first | exact absurd h (by decide) | exact absurd h' (by decide))))); simpa only [List.append_assoc, List.nil_append, List.append_nil, List.cons_append, nextT_append, nextT_cons, nextT_nil] using this) (by simp only [keepKids', List.flatMap_cons, List.flatMap_nil, List.replicate_zero, List.replicate_succ, List.getElem?_cons_zero, List.getElem?_cons_succ, Bool.false_eq_true, if_true, if_false, List.append_nil, List.nil_append, List.cons_append, List.append_assoc, kidsOf_nd] <;> rfl)

theorem y_232 {n : Nat} {u0 : Tok} {c1 : Tree} {w1 : List Tok} {t2 : List Tree} {w2 : List Tok} {u3 : Tok} {u4 : Tok} (k0 : u0.type = T.«FUNCTION») (h1 : Y N.«value_brackets» c1 w1 (nextT w2 u3.type)) (h2 : Y N.«__function_star_12» (nd "__function_star_12" t2) w2 u3.type) (k3 : u3.type = T.«_CPP_COMMENT_NL») (k4 : u4.type = T.«RPAR») :
    Y N.«function» (nd "function" (tk T.«FUNCTION» u0.text :: (c1 :: t2))) (u0 :: (w1 ++ (w2 ++ (u3 :: [u4])))) n :=
  Y.node ⟨N.«function», [T.«FUNCTION», N.«value_brackets», N.«__function_star_12», T.«_CPP_COMMENT_NL», T.«RPAR»], "function", false, [(0, false, 0), (1, false, 0), (2, true, 0)], 0⟩ (by decide +kernel) rfl (by decide) (free_plain (by decide) (by decide)) (cs := [tk T.«FUNCTION» u0.text, c1, nd "__function_star_12" t2, tk T.«_CPP_COMMENT_NL» u3.text, tk T.«RPAR» u4.text]) (by have : YL [T.«FUNCTION», N.«value_brackets», N.«__function_star_12», T.«_CPP_COMMENT_NL», T.«RPAR»] [tk T.«FUNCTION» u0.text, c1, nd "__function_star_12" t2, tk T.«_CPP_COMMENT_NL» u3.text, tk T.«RPAR» u4.text] (u0 :: (w1 ++ (w2 ++ (u3 :: (u4 :: ([])))))) n := (.tok k0 (by decide) (.nt (by simpa only [List.append_assoc, List.nil_append, List.append_nil, List.cons_append, nextT_append, nextT_cons, nextT_nil] using h1) (.nt (by simpa only [List.append_assoc, List.nil_append, List.append_nil, List.cons_append, nextT_append, nextT_cons, nextT_nil] using h2) (.tok k3 (by decide) (.tok k4 (by decide) .nil)) (fun h h' => by first | exact absurd h (by decide) | exact absurd h' (by decide))) (fun h h' => by first | exact absurd h (by decide) | exact absurd h' (by decide)))); simpa only [List.append_assoc, List.nil_append, List.append_nil, List.cons_append, nextT_append, nextT_cons, nextT_nil] using this) (by simp only [keepKids', List.flatMap_cons, List.flatMap_nil, List.replicate_zero, List.replicate_succ, List.getElem?_cons_zero, List.getElem?_cons_succ, Bool.false_eq_true, if_true, if_false, List.append_nil, List.nil_append, List.cons_append, List.append_assoc, kidsOf_nd] <;> rfl)

theorem y_235 {n : Nat} {u0 : Tok} {c1 : Tree} {w1 : List Tok} {u2 : Tok} (k0 : u0.type = T.«FUNCTION») (h1 : Y N.«value_brackets» c1 w1 u2.type) (k2 : u2.type = T.«RPAR») :
    Y N.«function» (nd "function" (tk T.«FUNCTION» u0.text :: [c1])) (u0 :: (w1 ++ [u2])) n :=
  Y.node ⟨N.«function», [T.«FUNCTION», N.«value_brackets», T.«RPAR»], "function", false, [(0, false, 0), (1, false, 0)], 0⟩ (by decide +kernel) rfl (by decide) (free_plain (by decide) (by decide)) (cs := [tk T.«FUNCTION» u0.text, c1, tk T.«RPAR» u2.text]) (by have : YL [T.«FUNCTION», N.«value_brackets», T.«RPAR»] [tk T.«FUNCTION» u0.text, c1, tk T.«RPAR» u2.text] (u0 :: (w1 ++ (u2 :: ([])))) n := (.tok k0 (by decide) (.nt (by simpa only [List.append_assoc, List.nil_append, List.append_nil, List.cons_append, nextT_append, nextT_cons, nextT_nil] using h1) (.tok k2 (by decide) .nil) (fun h h' => by first | exact absurd h (by decide) | exact absurd h' (by decide)))); simpa only [List.append_assoc, List.nil_append, List.append_nil, List.cons_append, nextT_append, nextT_cons, nextT_nil] using this) (by simp only [keepKids', List.flatMap_cons, List.flatMap_nil, List.replicate_zero, List.replicate_succ, List.getElem?_cons_zero, List.getElem?_cons_succ, Bool.false_eq_true, if_true, if_false, List.append_nil, List.nil_append, List.cons_append, List.append_assoc, kidsOf_nd] <;> rfl)

theorem y_238 {n : Nat} {u0 : Tok} {u1 : Tok} (k0 : u0.type = T.«FUNCTION») (k1 : u1.type = T.«RPAR») :
    Y N.«function» (nd "function" [tk T.«FUNCTION» u0.text]) (u0 :: [u1]) n :=
  Y.node ⟨N.«function», [T.«FUNCTION», T.«RPAR»], "function", false, [(0, false, 0)], 0⟩ (by decide +kernel) rfl (by decide) (free_plain (by decide) (by decide)) (cs := [tk T.«FUNCTION» u0.text, tk T.«RPAR» u1.text]) (by have : YL [T.«FUNCTION», T.«RPAR»] [tk T.«FUNCTION» u0.text, tk T.«RPAR» u1.text] (u0 :: (u1 :: ([]))) n := (.tok k0 (by decide) (.tok k1 (by decide) .nil)); simpa only [List.append_assoc, List.nil_append, List.append_nil, List.cons_append, nextT_append, nextT_cons, nextT_nil] using this) (by simp only [keepKids', List.flatMap_cons, List.flatMap_nil, List.replicate_zero, List.replicate_succ, List.getElem?_cons_zero, List.getElem?_cons_succ, Bool.false_eq_true, if_true, if_false, List.append_nil, List.nil_append, List.cons_append, List.append_assoc, kidsOf_nd] <;> rfl)

theorem y_241 {n : Nat} {c0 : Tree} {w0 : List Tok} (h0 : Y N.«operator_numeric» c0 w0 n) :
    Y N.«operator» (nd "operator" [c0]) w0 n :=
  Y.node ⟨N.«operator», [N.«operator_numeric»], "operator", false, [(0, false, 0)], 0⟩ (by decide +kernel) rfl (by decide) (free_plain (by decide) (by decide)) (cs := [c0]) (by have : YL [N.«operator_numeric»] [c0] (w0 ++ ([])) n := (.nt (by simpa only [List.append_assoc, List.nil_append, List.append_nil, List.cons_append, nextT_append, nextT_cons, nextT_nil] using h0) .nil (fun h h' => by first | exact absurd h (by decide) | exact absurd h' (by decide))); simpa only [List.append_assoc, List.nil_append, List.append_nil, List.cons_append, nextT_append, nextT_cons, nextT_nil] using this) (by simp only [keepKids', List.flatMap_cons, List.flatMap_nil, List.replicate_zero, List.replicate_succ, List.getElem?_cons_zero, List.getElem?_cons_succ, Bool.false_eq_true, if_true, if_false, List.append_nil, List.nil_append, List.cons_append, List.append_assoc, kidsOf_nd] <;> rfl)

theorem y_244 {n : Nat} {c0 : Tree} {w0 : List Tok} (h0 : Y N.«greater_than» c0 w0 n) (hm : isMeta c0 = false) :
    Y N.«operator_comparison» (c0) w0 n :=
  Y.ex ⟨N.«operator_comparison», [N.«greater_than»], "operator_comparison", true, [(0, false, 0)], 0⟩ (by decide +kernel) rfl (by decide) (free_plain (by decide) (by decide)) (cs := [c0]) (by have : YL [N.«greater_than»] [c0] (w0 ++ ([])) n := (.nt (by simpa only [List.append_assoc, List.nil_append, List.append_nil, List.cons_append, nextT_append, nextT_cons, nextT_nil] using h0) .nil (fun h h' => by first | exact absurd h (by decide) | exact absurd h' (by decide))); simpa only [List.append_assoc, List.nil_append, List.append_nil, List.cons_append, nextT_append, nextT_cons, nextT_nil] using this) (by simp only [keepKids', List.flatMap_cons, List.flatMap_nil, List.replicate_zero, List.replicate_succ, List.getElem?_cons_zero, List.getElem?_cons_succ, Bool.false_eq_true, if_true, if_false, List.append_nil, List.nil_append, List.cons_append, List.append_assoc, kidsOf_nd] <;> rfl) hm

theorem y_247 {n : Nat} {c0 : Tree} {w0 : List Tok} (h0 : Y N.«equals» c0 w0 n) (hm : isMeta c0 = false) :
    Y N.«operator_comparison» (c0) w0 n :=
  Y.ex ⟨N.«operator_comparison», [N.«equals»], "operator_comparison", true, [(0, false, 0)], 0⟩ (by decide +kernel) rfl (by decide) (free_plain (by decide) (by decide)) (cs := [c0]) (by have : YL [N.«equals»] [c0] (w0 ++ ([])) n := (.nt (by simpa only [List.append_assoc, List.nil_append, List.append_nil, List.cons_append, nextT_append, nextT_cons, nextT_nil] using h0) .nil (fun h h' => by first | exact absurd h (by decide) | exact absurd h' (by decide))); simpa only [List.append_assoc, List.nil_append, List.append_nil, List.cons_append, nextT_append, nextT_cons, nextT_nil] using this) (by simp only [keepKids', List.flatMap_cons, List.flatMap_nil, List.replicate_zero, List.replicate_succ, List.getElem?_cons_zero, List.getElem?_cons_succ, Bool.false_eq_true, if_true, if_false, List.append_nil, List.nil_append, List.cons_append, List.append_assoc, kidsOf_nd] <;> rfl) hm

theorem y_250 {n : Nat} {c0 : Tree} {w0 : List Tok} (h0 : Y N.«not_equals_case_insens» c0 w0 n) (hm : isMeta c0 = false) :
    Y N.«operator_comparison» (c0) w0 n :=
  Y.ex ⟨N.«operator_comparison», [N.«not_equals_case_insens»], "operator_comparison", true, [(0, false, 0)], 0⟩ (by decide +kernel) rfl (by decide) (free_plain (by decide) (by decide)) (cs := [c0]) (by have : YL [N.«not_equals_case_insens»] [c0] (w0 ++ ([])) n := (.nt (by simpa only [List.append_assoc, List.nil_append, List.append_nil, List.cons_append, nextT_append, nextT_cons, nextT_nil] using h0) .nil (fun h h' => by first | exact absurd h (by decide) | exact absurd h' (by decide))); simpa only [List.append_assoc, List.nil_append, List.append_nil, List.cons_append, nextT_append, nextT_cons, nextT_nil] using this) (by simp only [keepKids', List.flatMap_cons, List.flatMap_nil, List.replicate_zero, List.replicate_succ, List.getElem?_cons_zero, List.getElem?_cons_succ, Bool.false_eq_true, if_true, if_false, List.append_nil, List.nil_append, List.cons_append, List.append_assoc, kidsOf_nd] <;> rfl) hm

theorem y_253 {n : Nat} {c0 : Tree} {w0 : List Tok} {u1 : Tok} {c2 : Tree} {w2 : List Tok} (h0 : Y N.«value_brackets» c0 w0 u1.type) (k1 : u1.type = T.«__ANON_4») (h2 : Y N.«value_brackets» c2 w2 n) (hn : NoInfix n) :
    Y N.«less_than_or_equals» (nd "less_than_or_equals" (c0 :: [c2])) (w0 ++ (u1 :: w2)) n :=
  Y.node ⟨N.«less_than_or_equals», [N.«value_brackets», T.«__ANON_4», N.«value_brackets»], "less_than_or_equals", false, [(0, false, 0), (2, false, 0)], 0⟩ (by decide +kernel) rfl (by decide) (free_infix (by decide) hn) (cs := [c0, tk T.«__ANON_4» u1.text, c2]) (by have : YL [N.«value_brackets», T.«__ANON_4», N.«value_brackets»] [c0, tk T.«__ANON_4» u1.text, c2] (w0 ++ (u1 :: (w2 ++ ([])))) n := (.nt (by simpa only [List.append_assoc, List.nil_append, List.append_nil, List.cons_append, nextT_append, nextT_cons, nextT_nil] using h0) (.tok k1 (by decide) (.nt (by simpa only [List.append_assoc, List.nil_append, List.append_nil, List.cons_append, nextT_append, nextT_cons, nextT_nil] using h2) .nil (fun h h' => by first | exact absurd h (by decide) | exact absurd h' (by decide)))) (fun h h' => by first | exact absurd h (by decide) | exact absurd h' (by decide))); simpa only [List.append_assoc, List.nil_append, List.append_nil, List.cons_append, nextT_append, nextT_cons, nextT_nil] using this) (by simp only [keepKids', List.flatMap_cons, List.flatMap_nil, List.replicate_zero, List.replicate_succ, List.getElem?_cons_zero, List.getElem?_cons_succ, Bool.false_eq_true, if_true, if_false, List.append_nil, List.nil_append, List.cons_append, List.append_assoc, kidsOf_nd] <;> rfl)

theorem y_256 {n : Nat} {c0 : Tree} {w0 : List Tok} {u1 : Tok} {c2 : Tree} {w2 : List Tok} (h0 : Y N.«value_brackets» c0 w0 u1.type) (k1 : u1.type = T.«__ANON_6») (h2 : Y N.«value_brackets» c2 w2 n) (hn : NoInfix n) :
    Y N.«not_equals» (nd "not_equals" (c0 :: [c2])) (w0 ++ (u1 :: w2)) n :=
  Y.node ⟨N.«not_equals», [N.«value_brackets», T.«__ANON_6», N.«value_brackets»], "not_equals", false, [(0, false, 0), (2, false, 0)], 0⟩ (by decide +kernel) rfl (by decide) (free_infix (by decide) hn) (cs := [c0, tk T.«__ANON_6» u1.text, c2]) (by have : YL [N.«value_brackets», T.«__ANON_6», N.«value_brackets»] [c0, tk T.«__ANON_6» u1.text, c2] (w0 ++ (u1 :: (w2 ++ ([])))) n := (.nt (by simpa only [List.append_assoc, List.nil_append, List.append_nil, List.cons_append, nextT_append, nextT_cons, nextT_nil] using h0) (.tok k1 (by decide) (.nt (by simpa only [List.append_assoc, List.nil_append, List.append_nil, List.cons_append, nextT_append, nextT_cons, nextT_nil] using h2) .nil (fun h h' => by first | exact absurd h (by decide) | exact absurd h' (by decide)))) (fun h h' => by first | exact absurd h (by decide) | exact absurd h' (by decide))); simpa only [List.append_assoc, List.nil_append, List.append_nil, List.cons_append, nextT_append, nextT_cons, nextT_nil] using this) (by simp only [keepKids', List.flatMap_cons, List.flatMap_nil, List.replicate_zero, List.replicate_succ, List.getElem?_cons_zero, List.getElem?_cons_succ, Bool.false_eq_true, if_true, if_false, List.append_nil, List.nil_append, List.cons_append, List.append_assoc, kidsOf_nd] <;> rfl)

theorem y_259 {n : Nat} {c0 : Tree} {w0 : List Tok} (h0 : Y N.«and_op» c0 w0 n) (hm : isMeta c0 = false) :
    Y N.«operator_logical» (c0) w0 n :=
  Y.ex ⟨N.«operator_logical», [N.«and_op»], "operator_logical", true, [(0, false, 0)], 0⟩ (by decide +kernel) rfl (by decide) (free_plain (by decide) (by decide)) (cs := [c0]) (by have : YL [N.«and_op»] [c0] (w0 ++ ([])) n := (.nt (by simpa only [List.append_assoc, List.nil_append, List.append_nil, List.cons_append, nextT_append, nextT_cons, nextT_nil] using h0) .nil (fun h h' => by first | exact absurd h (by decide) | exact absurd h' (by decide))); simpa only [List.append_assoc, List.nil_append, List.append_nil, List.cons_append, nextT_append, nextT_cons, nextT_nil] using this) (by simp only [keepKids', List.flatMap_cons, List.flatMap_nil, List.replicate_zero, List.replicate_succ, List.getElem?_cons_zero, List.getElem?_cons_succ, Bool.false_eq_true, if_true, if_false, List.append_nil, List.nil_append, List.cons_append, List.append_assoc, kidsOf_nd] <;> rfl) hm

theorem y_262 {n : Nat} {c0 : Tree} {w0 : List Tok} (h0 : Y N.«coalesce» c0 w0 n) (hm : isMeta c0 = false) :
    Y N.«operator_logical» (c0) w0 n :=
  Y.ex ⟨N.«operator_logical», [N.«coalesce»], "operator_logical", true, [(0, false, 0)], 0⟩ (by decide +kernel) rfl (by decide) (free_plain (by decide) (by decide)) (cs := [c0]) (by have : YL [N.«coalesce»] [c0] (w0 ++ ([])) n := (.nt (by simpa only [List.append_assoc, List.nil_append, List.append_nil, List.cons_append, nextT_append, nextT_cons, nextT_nil] using h0) .nil (fun h h' => by first | exact absurd h (by decide) | exact absurd h' (by decide))); simpa only [List.append_assoc, List.nil_append, List.append_nil, List.cons_append, nextT_append, nextT_cons, nextT_nil] using this) (by simp only [keepKids', List.flatMap_cons, List.flatMap_nil, List.replicate_zero, List.replicate_succ, List.getElem?_cons_zero, List.getElem?_cons_succ, Bool.false_eq_true, if_true, if_false, List.append_nil, List.nil_append, List.cons_append, List.append_assoc, kidsOf_nd] <;> rfl) hm

theorem y_265 {n : Nat} {c0 : Tree} {w0 : List Tok} {u1 : Tok} {c2 : Tree} {w2 : List Tok} (h0 : Y N.«value_brackets» c0 w0 u1.type) (k1 : u1.type = T.«__ANON_10») (h2 : Y N.«value_brackets» c2 w2 n) (hn : NoInfix n) :
    Y N.«or_op» (nd "or_op" (c0 :: [c2])) (w0 ++ (u1 :: w2)) n :=
  Y.node ⟨N.«or_op», [N.«value_brackets», T.«__ANON_10», N.«value_brackets»], "or_op", false, [(0, false, 0), (2, false, 0)], 0⟩ (by decide +kernel) rfl (by decide) (free_infix (by decide) hn) (cs := [c0, tk T.«__ANON_10» u1.text, c2]) (by have : YL [N.«value_brackets», T.«__ANON_10», N.«value_brackets»] [c0, tk T.«__ANON_10» u1.text, c2] (w0 ++ (u1 :: (w2 ++ ([])))) n := (.nt (by simpa only [List.append_assoc, List.nil_append, List.append_nil, List.cons_append, nextT_append, nextT_cons, nextT_nil] using h0) (.tok k1 (by decide) (.nt (by simpa only [List.append_assoc, List.nil_append, List.append_nil, List.cons_append, nextT_append, nextT_cons, nextT_nil] using h2) .nil (fun h h' => by first | exact absurd h (by decide) | exact absurd h' (by decide)))) (fun h h' => by first | exact absurd h (by decide) | exact absurd h' (by decide))); simpa only [List.append_assoc, List.nil_append, List.append_nil, List.cons_append, nextT_append, nextT_cons, nextT_nil] using this) (by simp only [keepKids', List.flatMap_cons, List.flatMap_nil, List.replicate_zero, List.replicate_succ, List.getElem?_cons_zero, List.getElem?_cons_succ, Bool.false_eq_true, if_true, if_false, List.append_nil, List.nil_append, List.cons_append, List.append_assoc, kidsOf_nd] <;> rfl)

theorem y_268 {n : Nat} {c0 : Tree} {w0 : List Tok} {u1 : Tok} {c2 : Tree} {w2 : List Tok} {u3 : Tok} {c4 : Tree} {w4 : List Tok} (h0 : Y N.«value_brackets» c0 w0 u1.type) (k1 : u1.type = T.«QMARK») (h2 : Y N.«value_brackets» c2 w2 u3.type) (k3 : u3.type = T.«COLON») (h4 : Y N.«value_brackets» c4 w4 n) (hn : NoInfix n) :
    Y N.«conditional» (nd "conditional" (c0 :: (c2 :: [c4]))) (w0 ++ (u1 :: (w2 ++ (u3 :: w4)))) n :=
  Y.node ⟨N.«conditional», [N.«value_brackets», T.«QMARK», N.«value_brackets», T.«COLON», N.«value_brackets»], "conditional", false, [(0, false, 0), (2, false, 0), (4, false, 0)], 0⟩ (by decide +kernel) rfl (by decide) (free_infix (by decide) hn) (cs := [c0, tk T.«QMARK» u1.text, c2, tk T.«COLON» u3.text, c4]) (by have : YL [N.«value_brackets», T.«QMARK», N.«value_brackets», T.«COLON», N.«value_brackets»] [c0, tk T.«QMARK» u1.text, c2, tk T.«COLON» u3.text, c4] (w0 ++ (u1 :: (w2 ++ (u3 :: (w4 ++ ([])))))) n := (.nt (by simpa only [List.append_assoc, List.nil_append, List.append_nil, List.cons_append, nextT_append, nextT_cons, nextT_nil] using h0) (.tok k1 (by decide) (.nt (by simpa only [List.append_assoc, List.nil_append, List.append_nil, List.cons_append, nextT_append, nextT_cons, nextT_nil] using h2) (.tok k3 (by decide) (.nt (by simpa only [List.append_assoc, List.nil_append, List.append_nil, List.cons_append, nextT_append, nextT_cons, nextT_nil] using h4) .nil (fun h h' => by first | exact absurd h (by decide) | exact absurd h' (by decide)))) (fun h h' => by first | exact absurd h (by decide) | exact absurd h' (by decide)))) (fun h h' => by first | exact absurd h (by decide) | exact absurd h' (by decide))); simpa only [List.append_assoc, List.nil_append, List.append_nil, List.cons_append, nextT_append, nextT_cons, nextT_nil] using this) (by simp only [keepKids', List.flatMap_cons, List.flatMap_nil, List.replicate_zero, List.replicate_succ, List.getElem?_cons_zero, List.getElem?_cons_succ, Bool.false_eq_true, if_true, if_false, List.append_nil, List.nil_append, List.cons_append, List.append_assoc, kidsOf_nd] <;> rfl)

theorem y_271 {n : Nat} {c0 : Tree} {w0 : List Tok} (h0 : Y N.«minus» c0 w0 n) (hm : isMeta c0 = false) :
    Y N.«operator_numeric» (c0) w0 n :=
  Y.ex ⟨N.«operator_numeric», [N.«minus»], "operator_numeric", true, [(0, false, 0)], 0⟩ (by decide +kernel) rfl (by decide) (free_plain (by decide) (by decide)) (cs := [c0]) (by have : YL [N.«minus»] [c0] (w0 ++ ([])) n := (.nt (by simpa only [List.append_assoc, List.nil_append, List.append_nil, List.cons_append, nextT_append, nextT_cons, nextT_nil] using h0) .nil (fun h h' => by first | exact absurd h (by decide) | exact absurd h' (by decide))); simpa only [List.append_assoc, List.nil_append, List.append_nil, List.cons_append, nextT_append, nextT_cons, nextT_nil] using this) (by simp only [keepKids', List.flatMap_cons, List.flatMap_nil, List.replicate_zero, List.replicate_succ, List.getElem?_cons_zero, List.getElem?_cons_succ, Bool.false_eq_true, if_true, if_false, List.append_nil, List.nil_append, List.cons_append, List.append_assoc, kidsOf_nd] <;> rfl) hm

theorem y_274 {n : Nat} {c0 : Tree} {w0 : List Tok} (h0 : Y N.«substract» c0 w0 n) (hm : isMeta c0 = false) :
    Y N.«operator_numeric» (c0) w0 n :=
  Y.ex ⟨N.«operator_numeric», [N.«substract»], "operator_numeric", true, [(0, false, 0)], 0⟩ (by decide +kernel) rfl (by decide) (free_plain (by decide) (by decide)) (cs := [c0]) (by have : YL [N.«substract»] [c0] (w0 ++ ([])) n := (.nt (by simpa only [List.append_assoc, List.nil_append, List.append_nil, List.cons_append, nextT_append, nextT_cons, nextT_nil] using h0) .nil (fun h h' => by first | exact absurd h (by decide) | exact absurd h' (by decide))); simpa only [List.append_assoc, List.nil_append, List.append_nil, List.cons_append, nextT_append, nextT_cons, nextT_nil] using this) (by simp only [keepKids', List.flatMap_cons, List.flatMap_nil, List.replicate_zero, List.replicate_succ, List.getElem?_cons_zero, List.getElem?_cons_succ, Bool.false_eq_true, if_true, if_false, List.append_nil, List.nil_append, List.cons_append, List.append_assoc, kidsOf_nd] <;> rfl) hm

theorem y_277 {n : Nat} {u0 : Tok} {c1 : Tree} {w1 : List Tok} (k0 : u0.type = T.«MINUS») (h1 : Y N.«value_brackets» c1 w1 n) (hn : NoInfix n) :
    Y N.«minus» (nd "minus" [c1]) (u0 :: w1) n :=
  Y.node ⟨N.«minus», [T.«MINUS», N.«value_brackets»], "minus", false, [(1, false, 0)], 0⟩ (by decide +kernel) rfl (by decide) (free_infix (by decide) hn) (cs := [tk T.«MINUS» u0.text, c1]) (by have : YL [T.«MINUS», N.«value_brackets»] [tk T.«MINUS» u0.text, c1] (u0 :: (w1 ++ ([]))) n := (.tok k0 (by decide) (.nt (by simpa only [List.append_assoc, List.nil_append, List.append_nil, List.cons_append, nextT_append, nextT_cons, nextT_nil] using h1) .nil (fun h h' => by first | exact absurd h (by decide) | exact absurd h' (by decide)))); simpa only [List.append_assoc, List.nil_append, List.append_nil, List.cons_append, nextT_append, nextT_cons, nextT_nil] using this) (by simp only [keepKids', List.flatMap_cons, List.flatMap_nil, List.replicate_zero, List.replicate_succ, List.getElem?_cons_zero, List.getElem?_cons_succ, Bool.false_eq_true, if_true, if_false, List.append_nil, List.nil_append, List.cons_append, List.append_assoc, kidsOf_nd] <;> rfl)

theorem y_280 {n : Nat} {c0 : Tree} {w0 : List Tok} {u1 : Tok} {c2 : Tree} {w2 : List Tok} (h0 : Y N.«value_brackets» c0 w0 u1.type) (k1 : u1.type = T.«MINUS») (h2 : Y N.«value_brackets» c2 w2 n) (hn : NoInfix n) :
    Y N.«substract» (nd "substract" (c0 :: [c2])) (w0 ++ (u1 :: w2)) n :=
  Y.node ⟨N.«substract», [N.«value_brackets», T.«MINUS», N.«value_brackets»], "substract", false, [(0, false, 0), (2, false, 0)], 0⟩ (by decide +kernel) rfl (by decide) (free_infix (by decide) hn) (cs := [c0, tk T.«MINUS» u1.text, c2]) (by have : YL [N.«value_brackets», T.«MINUS», N.«value_brackets»] [c0, tk T.«MINUS» u1.text, c2] (w0 ++ (u1 :: (w2 ++ ([])))) n := (.nt (by simpa only [List.append_assoc, List.nil_append, List.append_nil, List.cons_append, nextT_append, nextT_cons, nextT_nil] using h0) (.tok k1 (by decide) (.nt (by simpa only [List.append_assoc, List.nil_append, List.append_nil, List.cons_append, nextT_append, nextT_cons, nextT_nil] using h2) .nil (fun h h' => by first | exact absurd h (by decide) | exact absurd h' (by decide)))) (fun h h' => by first | exact absurd h (by decide) | exact absurd h' (by decide))); simpa only [List.append_assoc, List.nil_append, List.append_nil, List.cons_append, nextT_append, nextT_cons, nextT_nil] using this) (by simp only [keepKids', List.flatMap_cons, List.flatMap_nil, List.replicate_zero, List.replicate_succ, List.getElem?_cons_zero, List.getElem?_cons_succ, Bool.false_eq_true, if_true, if_false, List.append_nil, List.nil_append, List.cons_append, List.append_assoc, kidsOf_nd] <;> rfl)

theorem y_283 {n : Nat} {c0 : Tree} {w0 : List Tok} (h0 : Y N.«nested_resource_accessor» c0 w0 n) (hm : isMeta c0 = false) :
    Y N.«operator_accessor» (c0) w0 n :=
  Y.ex ⟨N.«operator_accessor», [N.«nested_resource_accessor»], "operator_accessor", true, [(0, false, 0)], 0⟩ (by decide +kernel) rfl (by decide) (free_plain (by decide) (by decide)) (cs := [c0]) (by have : YL [N.«nested_resource_accessor»] [c0] (w0 ++ ([])) n := (.nt (by simpa only [List.append_assoc, List.nil_append, List.append_nil, List.cons_append, nextT_append, nextT_cons, nextT_nil] using h0) .nil (fun h h' => by first | exact absurd h (by decide) | exact absurd h' (by decide))); simpa only [List.append_assoc, List.nil_append, List.append_nil, List.cons_append, nextT_append, nextT_cons, nextT_nil] using this) (by simp only [keepKids', List.flatMap_cons, List.flatMap_nil, List.replicate_zero, List.replicate_succ, List.getElem?_cons_zero, List.getElem?_cons_succ, Bool.false_eq_true, if_true, if_false, List.append_nil, List.nil_append, List.cons_append, List.append_assoc, kidsOf_nd] <;> rfl) hm

theorem y_286 {n : Nat} {c0 : Tree} {w0 : List Tok} {u1 : Tok} {c2 : Tree} {w2 : List Tok} {u3 : Tok} (h0 : Y N.«value_brackets» c0 w0 u1.type) (k1 : u1.type = T.«LSQB») (h2 : Y N.«value_brackets» c2 w2 u3.type) (k3 : u3.type = T.«RSQB») :
    Y N.«index_accessor» (nd "index_accessor" (c0 :: [c2])) (w0 ++ (u1 :: (w2 ++ [u3]))) n :=
  Y.node ⟨N.«index_accessor», [N.«value_brackets», T.«LSQB», N.«value_brackets», T.«RSQB»], "index_accessor", false, [(0, false, 0), (2, false, 0)], 0⟩ (by decide +kernel) rfl (by decide) (free_plain (by decide) (by decide)) (cs := [c0, tk T.«LSQB» u1.text, c2, tk T.«RSQB» u3.text]) (by have : YL [N.«value_brackets», T.«LSQB», N.«value_brackets», T.«RSQB»] [c0, tk T.«LSQB» u1.text, c2, tk T.«RSQB» u3.text] (w0 ++ (u1 :: (w2 ++ (u3 :: ([]))))) n := (.nt (by simpa only [List.append_assoc, List.nil_append, List.append_nil, List.cons_append, nextT_append, nextT_cons, nextT_nil] using h0) (.tok k1 (by decide) (.nt (by simpa only [List.append_assoc, List.nil_append, List.append_nil, List.cons_append, nextT_append, nextT_cons, nextT_nil] using h2) (.tok k3 (by decide) .nil) (fun h h' => by first | exact absurd h (by decide) | exact absurd h' (by decide)))) (fun h h' => by first | exact absurd h (by decide) | exact absurd h' (by decide))); simpa only [List.append_assoc, List.nil_append, List.append_nil, List.cons_append, nextT_append, nextT_cons, nextT_nil] using this) (by simp only [keepKids', List.flatMap_cons, List.flatMap_nil, List.replicate_zero, List.replicate_succ, List.getElem?_cons_zero, List.getElem?_cons_succ, Bool.false_eq_true, if_true, if_false, List.append_nil, List.nil_append, List.cons_append, List.append_assoc, kidsOf_nd] <;> rfl)

theorem y_289 {n : Nat} {c0 : Tree} {w0 : List Tok} {u1 : Tok} {c2 : Tree} {w2 : List Tok} (h0 : Y N.«value_brackets» c0 w0 u1.type) (k1 : u1.type = T.«__ANON_12») (h2 : Y N.«value_brackets» c2 w2 n) (hn : NoInfix n) :
    Y N.«nested_resource_accessor» (nd "nested_resource_accessor" (c0 :: [c2])) (w0 ++ (u1 :: w2)) n :=
  Y.node ⟨N.«nested_resource_accessor», [N.«value_brackets», T.«__ANON_12», N.«value_brackets»], "nested_resource_accessor", false, [(0, false, 0), (2, false, 0)], 0⟩ (by decide +kernel) rfl (by decide) (free_infix (by decide) hn) (cs := [c0, tk T.«__ANON_12» u1.text, c2]) (by have : YL [N.«value_brackets», T.«__ANON_12», N.«value_brackets»] [c0, tk T.«__ANON_12» u1.text, c2] (w0 ++ (u1 :: (w2 ++ ([])))) n := (.nt (by simpa only [List.append_assoc, List.nil_append, List.append_nil, List.cons_append, nextT_append, nextT_cons, nextT_nil] using h0) (.tok k1 (by decide) (.nt (by simpa only [List.append_assoc, List.nil_append, List.append_nil, List.cons_append, nextT_append, nextT_cons, nextT_nil] using h2) .nil (fun h h' => by first | exact absurd h (by decide) | exact absurd h' (by decide)))) (fun h h' => by first | exact absurd h (by decide) | exact absurd h' (by decide))); simpa only [List.append_assoc, List.nil_append, List.append_nil, List.cons_append, nextT_append, nextT_cons, nextT_nil] using this) (by simp only [keepKids', List.flatMap_cons, List.flatMap_nil, List.replicate_zero, List.replicate_succ, List.getElem?_cons_zero, List.getElem?_cons_succ, Bool.false_eq_true, if_true, if_false, List.append_nil, List.nil_append, List.cons_append, List.append_assoc, kidsOf_nd] <;> rfl)

theorem y_292 {n : Nat} {c0 : Tree} {w0 : List Tok} {u1 : Tok} (h0 : Y N.«element» c0 w0 u1.type) (k1 : u1.type = T.«_CPP_COMMENT_NL») :
    Y N.«__start_star_0» (nd "__start_star_0" [c0]) (w0 ++ [u1]) n :=
  Y.node ⟨N.«__start_star_0», [N.«element», T.«_CPP_COMMENT_NL»], "__start_star_0", false, [(0, false, 0)], 0⟩ (by decide +kernel) rfl (by decide) (free_plain (by decide) (by decide)) (cs := [c0, tk T.«_CPP_COMMENT_NL» u1.text]) (by have : YL [N.«element», T.«_CPP_COMMENT_NL»] [c0, tk T.«_CPP_COMMENT_NL» u1.text] (w0 ++ (u1 :: ([]))) n := (.nt (by simpa only [List.append_assoc, List.nil_append, List.append_nil, List.cons_append, nextT_append, nextT_cons, nextT_nil] using h0) (.tok k1 (by decide) .nil) (fun h h' => by first | exact absurd h (by decide) | exact absurd h' (by decide))); simpa only [List.append_assoc, List.nil_append, List.append_nil, List.cons_append, nextT_append, nextT_cons, nextT_nil] using this) (by simp only [keepKids', List.flatMap_cons, List.flatMap_nil, List.replicate_zero, List.replicate_succ, List.getElem?_cons_zero, List.getElem?_cons_succ, Bool.false_eq_true, if_true, if_false, List.append_nil, List.nil_append, List.cons_append, List.append_assoc, kidsOf_nd] <;> rfl)

theorem y_295 {n : Nat} {t0 : List Tree} {w0 : List Tok} {c1 : Tree} {w1 : List Tok} {u2 : Tok} (h0 : Y N.«__start_star_0» (nd "__start_star_0" t0) w0 (nextT w1 u2.type)) (h1 : Y N.«element» c1 w1 u2.type) (k2 : u2.type = T.«_CPP_COMMENT_NL») :
    Y N.«__start_star_0» (nd "__start_star_0" (t0 ++ [c1])) (w0 ++ (w1 ++ [u2])) n :=
  Y.node ⟨N.«__start_star_0», [N.«__start_star_0», N.«element», T.«_CPP_COMMENT_NL»], "__start_star_0", false, [(0, true, 0), (1, false, 0)], 0⟩ (by decide +kernel) rfl (by decide) (free_plain (by decide) (by decide)) (cs := [nd "__start_star_0" t0, c1, tk T.«_CPP_COMMENT_NL» u2.text]) (by have : YL [N.«__start_star_0», N.«element», T.«_CPP_COMMENT_NL»] [nd "__start_star_0" t0, c1, tk T.«_CPP_COMMENT_NL» u2.text] (w0 ++ (w1 ++ (u2 :: ([])))) n := (.nt (by simpa only [List.append_assoc, List.nil_append, List.append_nil, List.cons_append, nextT_append, nextT_cons, nextT_nil] using h0) (.nt (by simpa only [List.append_assoc, List.nil_append, List.append_nil, List.cons_append, nextT_append, nextT_cons, nextT_nil] using h1) (.tok k2 (by decide) .nil) (fun h h' => by first | exact absurd h (by decide) | exact absurd h' (by decide))) (fun h h' => by first | exact absurd h (by decide) | exact absurd h' (by decide))); simpa only [List.append_assoc, List.nil_append, List.append_nil, List.cons_append, nextT_append, nextT_cons, nextT_nil] using this) (by simp only [keepKids', List.flatMap_cons, List.flatMap_nil, List.replicate_zero, List.replicate_succ, List.getElem?_cons_zero, List.getElem?_cons_succ, Bool.false_eq_true, if_true, if_false, List.append_nil, List.nil_append, List.cons_append, List.append_assoc, kidsOf_nd] <;> rfl)

theorem y_298 {n : Nat} {u0 : Tok} {c1 : Tree} {w1 : List Tok} (k0 : u0.type = T.«COMMA») (h1 : Y N.«import_alias» c1 w1 n) :
    Y N.«___import_statement_star_1» (nd "___import_statement_star_1" [c1]) (u0 :: w1) n :=
  Y.node ⟨N.«___import_statement_star_1», [T.«COMMA», N.«import_alias»], "___import_statement_star_1", false, [(1, false, 0)], 0⟩ (by decide +kernel) rfl (by decide) (free_plain (by decide) (by decide)) (cs := [tk T.«COMMA» u0.text, c1]) (by have : YL [T.«COMMA», N.«import_alias»] [tk T.«COMMA» u0.text, c1] (u0 :: (w1 ++ ([]))) n := (.tok k0 (by decide) (.nt (by simpa only [List.append_assoc, List.nil_append, List.append_nil, List.cons_append, nextT_append, nextT_cons, nextT_nil] using h1) .nil (fun h h' => by first | exact absurd h (by decide) | exact absurd h' (by decide)))); simpa only [List.append_assoc, List.nil_append, List.append_nil, List.cons_append, nextT_append, nextT_cons, nextT_nil] using this) (by simp only [keepKids', List.flatMap_cons, List.flatMap_nil, List.replicate_zero, List.replicate_succ, List.getElem?_cons_zero, List.getElem?_cons_succ, Bool.false_eq_true, if_true, if_false, List.append_nil, List.nil_append, List.cons_append, List.append_assoc, kidsOf_nd] <;> rfl)

theorem y_301 {n : Nat} {t0 : List Tree} {w0 : List Tok} {u1 : Tok} {u2 : Tok} {c3 : Tree} {w3 : List Tok} (h0 : Y N.«___func_statement_star_2» (nd "___func_statement_star_2" t0) w0 u1.type) (k1 : u1.type = T.«COMMA») (k2 : u2.type = T.«STRING») (h3 : Y N.«data_type» c3 w3 n) :
    Y N.«___func_statement_star_2» (nd "___func_statement_star_2" (t0 ++ (tk T.«STRING» u2.text :: [c3]))) (w0 ++ (u1 :: (u2 :: w3))) n :=
  Y.node ⟨N.«___func_statement_star_2», [N.«___func_statement_star_2», T.«COMMA», T.«STRING», N.«data_type»], "___func_statement_star_2", false, [(0, true, 0), (2, false, 0), (3, false, 0)], 0⟩ (by decide +kernel) rfl (by decide) (free_plain (by decide) (by decide)) (cs := [nd "___func_statement_star_2" t0, tk T.«COMMA» u1.text, tk T.«STRING» u2.text, c3]) (by have : YL [N.«___func_statement_star_2», T.«COMMA», T.«STRING», N.«data_type»] [nd "___func_statement_star_2" t0, tk T.«COMMA» u1.text, tk T.«STRING» u2.text, c3] (w0 ++ (u1 :: (u2 :: (w3 ++ ([]))))) n := (.nt (by simpa only [List.append_assoc, List.nil_append, List.append_nil, List.cons_append, nextT_append, nextT_cons, nextT_nil] using h0) (.tok k1 (by decide) (.tok k2 (by decide) (.nt (by simpa only [List.append_assoc, List.nil_append, List.append_nil, List.cons_append, nextT_append, nextT_cons, nextT_nil] using h3) .nil (fun h h' => by first | exact absurd h (by decide) | exact absurd h' (by decide))))) (fun h h' => by first | exact absurd h (by decide) | exact absurd h' (by decide))); simpa only [List.append_assoc, List.nil_append, List.append_nil, List.cons_append, nextT_append, nextT_cons, nextT_nil] using this) (by simp only [keepKids', List.flatMap_cons, List.flatMap_nil, List.replicate_zero, List.replicate_succ, List.getElem?_cons_zero, List.getElem?_cons_succ, Bool.false_eq_true, if_true, if_false, List.append_nil, List.nil_append, List.cons_append, List.append_assoc, kidsOf_nd] <;> rfl)

theorem y_304 {n : Nat} {u0 : Tok} {c1 : Tree} {w1 : List Tok} (k0 : u0.type = T.«VBAR») (h1 : Y N.«value_brackets» c1 w1 n) (hn : NoInfix n) :
    Y N.«__type_value_star_4» (nd "__type_value_star_4" [c1]) (u0 :: w1) n :=
  Y.node ⟨N.«__type_value_star_4», [T.«VBAR», N.«value_brackets»], "__type_value_star_4", false, [(1, false, 0)], 0⟩ (by decide +kernel) rfl (by decide) (free_infix (by decide) hn) (cs := [tk T.«VBAR» u0.text, c1]) (by have : YL [T.«VBAR», N.«value_brackets»] [tk T.«VBAR» u0.text, c1] (u0 :: (w1 ++ ([]))) n := (.tok k0 (by decide) (.nt (by simpa only [List.append_assoc, List.nil_append, List.append_nil, List.cons_append, nextT_append, nextT_cons, nextT_nil] using h1) .nil (fun h h' => by first | exact absurd h (by decide) | exact absurd h' (by decide)))); simpa only [List.append_assoc, List.nil_append, List.append_nil, List.cons_append, nextT_append, nextT_cons, nextT_nil] using this) (by simp only [keepKids', List.flatMap_cons, List.flatMap_nil, List.replicate_zero, List.replicate_succ, List.getElem?_cons_zero, List.getElem?_cons_succ, Bool.false_eq_true, if_true, if_false, List.append_nil, List.nil_append, List.cons_append, List.append_assoc, kidsOf_nd] <;> rfl)

theorem y_307 {n : Nat} {t0 : List Tree} {w0 : List Tok} {c1 : Tree} {w1 : List Tok} (h0 : Y N.«__data_type_star_5» (nd "__data_type_star_5" t0) w0 (nextT w1 n)) (h1 : Y N.«array_suffix» c1 w1 n) :
    Y N.«__data_type_star_5» (nd "__data_type_star_5" (t0 ++ [c1])) (w0 ++ w1) n :=
  Y.node ⟨N.«__data_type_star_5», [N.«__data_type_star_5», N.«array_suffix»], "__data_type_star_5", false, [(0, true, 0), (1, false, 0)], 0⟩ (by decide +kernel) rfl (by decide) (free_plain (by decide) (by decide)) (cs := [nd "__data_type_star_5" t0, c1]) (by have : YL [N.«__data_type_star_5», N.«array_suffix»] [nd "__data_type_star_5" t0, c1] (w0 ++ (w1 ++ ([]))) n := (.nt (by simpa only [List.append_assoc, List.nil_append, List.append_nil, List.cons_append, nextT_append, nextT_cons, nextT_nil] using h0) (.nt (by simpa only [List.append_assoc, List.nil_append, List.append_nil, List.cons_append, nextT_append, nextT_cons, nextT_nil] using h1) .nil (fun h h' => by first | exact absurd h (by decide) | exact absurd h' (by decide))) (fun h h' => by first | exact absurd h (by decide) | exact absurd h' (by decide))); simpa only [List.append_assoc, List.nil_append, List.append_nil, List.cons_append, nextT_append, nextT_cons, nextT_nil] using this) (by simp only [keepKids', List.flatMap_cons, List.flatMap_nil, List.replicate_zero, List.replicate_succ, List.getElem?_cons_zero, List.getElem?_cons_succ, Bool.false_eq_true, if_true, if_false, List.append_nil, List.nil_append, List.cons_append, List.append_assoc, kidsOf_nd] <;> rfl)

theorem y_310 {n : Nat} {u0 : Tok} {c1 : Tree} {w1 : List Tok} (k0 : u0.type = T.«COMMA») (h1 : Y N.«value_brackets» c1 w1 n) (hn : NoInfix n) :
    Y N.«__array_star_7» (nd "__array_star_7" [c1]) (u0 :: w1) n :=
  Y.node ⟨N.«__array_star_7», [T.«COMMA», N.«value_brackets»], "__array_star_7", false, [(1, false, 0)], 0⟩ (by decide +kernel) rfl (by decide) (free_infix (by decide) hn) (cs := [tk T.«COMMA» u0.text, c1]) (by have : YL [T.«COMMA», N.«value_brackets»] [tk T.«COMMA» u0.text, c1] (u0 :: (w1 ++ ([]))) n := (.tok k0 (by decide) (.nt (by simpa only [List.append_assoc, List.nil_append, List.append_nil, List.cons_append, nextT_append, nextT_cons, nextT_nil] using h1) .nil (fun h h' => by first | exact absurd h (by decide) | exact absurd h' (by decide)))); simpa only [List.append_assoc, List.nil_append, List.append_nil, List.cons_append, nextT_append, nextT_cons, nextT_nil] using this) (by simp only [keepKids', List.flatMap_cons, List.flatMap_nil, List.replicate_zero, List.replicate_succ, List.getElem?_cons_zero, List.getElem?_cons_succ, Bool.false_eq_true, if_true, if_false, List.append_nil, List.nil_append, List.cons_append, List.append_assoc, kidsOf_nd] <;> rfl)

theorem y_313 {n : Nat} {c0 : Tree} {w0 : List Tok} {t1 : List Tree} {w1 : List Tok} (h0 : Y N.«value_brackets» c0 w0 (nextT w1 n)) (h1 : Y N.«__array_star_7» (nd "__array_star_7" t1) w1 n) :
    Y N.«__array_star_8» (nd "__array_star_8" (c0 :: t1)) (w0 ++ w1) n :=
  Y.node ⟨N.«__array_star_8», [N.«value_brackets», N.«__array_star_7»], "__array_star_8", false, [(0, false, 0), (1, true, 0)], 0⟩ (by decide +kernel) rfl (by decide) (free_plain (by decide) (by decide)) (cs := [c0, nd "__array_star_7" t1]) (by have : YL [N.«value_brackets», N.«__array_star_7»] [c0, nd "__array_star_7" t1] (w0 ++ (w1 ++ ([]))) n := (.nt (by simpa only [List.append_assoc, List.nil_append, List.append_nil, List.cons_append, nextT_append, nextT_cons, nextT_nil] using h0) (.nt (by simpa only [List.append_assoc, List.nil_append, List.append_nil, List.cons_append, nextT_append, nextT_cons, nextT_nil] using h1) .nil (fun h h' => by first | exact absurd h (by decide) | exact absurd h' (by decide))) (fun h h' => by first | exact absurd h (by decide) | exact absurd h' (by decide))); simpa only [List.append_assoc, List.nil_append, List.append_nil, List.cons_append, nextT_append, nextT_cons, nextT_nil] using this) (by simp only [keepKids', List.flatMap_cons, List.flatMap_nil, List.replicate_zero, List.replicate_succ, List.getElem?_cons_zero, List.getElem?_cons_succ, Bool.false_eq_true, if_true, if_false, List.append_nil, List.nil_append, List.cons_append, List.append_assoc, kidsOf_nd] <;> rfl)

theorem y_316 {n : Nat} {t0 : List Tree} {w0 : List Tok} {c1 : Tree} {w1 : List Tok} {t2 : List Tree} {w2 : List Tok} {t3 : List Tree} {w3 : List Tok} (h0 : Y N.«__array_star_8» (nd "__array_star_8" t0) w0 (nextT w1 (nextT w2 (nextT w3 n)))) (h1 : Y N.«value_brackets» c1 w1 (nextT w2 (nextT w3 n))) (h2 : Y N.«__array_star_7» (nd "__array_star_7" t2) w2 (nextT w3 n)) (h3 : Y N.«__child_resource_plus_3» (nd "__child_resource_plus_3" t3) w3 n) :
    Y N.«__array_star_8» (nd "__array_star_8" (t0 ++ (c1 :: (t2 ++ t3)))) (w0 ++ (w1 ++ (w2 ++ w3))) n :=
  Y.node ⟨N.«__array_star_8», [N.«__array_star_8», N.«value_brackets», N.«__array_star_7», N.«__child_resource_plus_3»], "__array_star_8", false, [(0, true, 0), (1, false, 0), (2, true, 0), (3, true, 0)], 0⟩ (by decide +kernel) rfl (by decide) (free_plain (by decide) (by decide)) (cs := [nd "__array_star_8" t0, c1, nd "__array_star_7" t2, nd "__child_resource_plus_3" t3]) (by have : YL [N.«__array_star_8», N.«value_brackets», N.«__array_star_7», N.«__child_resource_plus_3»] [nd "__array_star_8" t0, c1, nd "__array_star_7" t2, nd "__child_resource_plus_3" t3] (w0 ++ (w1 ++ (w2 ++ (w3 ++ ([]))))) n := (.nt (by simpa only [List.append_assoc, List.nil_append, List.append_nil, List.cons_append, nextT_append, nextT_cons, nextT_nil] using h0) (.nt (by simpa only [List.append_assoc, List.nil_append, List.append_nil, List.cons_append, nextT_append, nextT_cons, nextT_nil] using h1) (.nt (by simpa only [List.append_assoc, List.nil_append, List.append_nil, List.cons_append, nextT_append, nextT_cons, nextT_nil] using h2) (.nt (by simpa only [List.append_assoc, List.nil_append, List.append_nil, List.cons_append, nextT_append, nextT_cons, nextT_nil] using h3) .nil (fun h h' => by first | exact absurd h (by decide) | exact absurd h' (by decide))) (fun h h' => by first | exact absurd h (by decide) | exact absurd h' (by decide))) (fun h h' => by first | exact absurd h (by decide) | exact absurd h' (by decide))) (fun h h' => by first | exact absurd h (by decide) | exact absurd h' (by decide))); simpa only [List.append_assoc, List.nil_append, List.append_nil, List.cons_append, nextT_append, nextT_cons, nextT_nil] using this) (by simp only [keepKids', List.flatMap_cons, List.flatMap_nil, List.replicate_zero, List.replicate_succ, List.getElem?_cons_zero, List.getElem?_cons_succ, Bool.false_eq_true, if_true, if_false, List.append_nil, List.nil_append, List.cons_append, List.append_assoc, kidsOf_nd] <;> rfl)

theorem y_319 {n : Nat} {t0 : List Tree} {w0 : List Tok} {c1 : Tree} {w1 : List Tok} (h0 : Y N.«__array_star_8» (nd "__array_star_8" t0) w0 (nextT w1 n)) (h1 : Y N.«value_brackets» c1 w1 n) (hn : NoInfix n) :
    Y N.«__array_star_8» (nd "__array_star_8" (t0 ++ [c1])) (w0 ++ w1) n :=
  Y.node ⟨N.«__array_star_8», [N.«__array_star_8», N.«value_brackets»], "__array_star_8", false, [(0, true, 0), (1, false, 0)], 0⟩ (by decide +kernel) rfl (by decide) (free_infix (by decide) hn) (cs := [nd "__array_star_8" t0, c1]) (by have : YL [N.«__array_star_8», N.«value_brackets»] [nd "__array_star_8" t0, c1] (w0 ++ (w1 ++ ([]))) n := (.nt (by simpa only [List.append_assoc, List.nil_append, List.append_nil, List.cons_append, nextT_append, nextT_cons, nextT_nil] using h0) (.nt (by simpa only [List.append_assoc, List.nil_append, List.append_nil, List.cons_append, nextT_append, nextT_cons, nextT_nil] using h1) .nil (fun h h' => by first | exact absurd h (by decide) | exact absurd h' (by decide))) (fun h h' => by first | exact absurd h (by decide) | exact absurd h' (by decide))); simpa only [List.append_assoc, List.nil_append, List.append_nil, List.cons_append, nextT_append, nextT_cons, nextT_nil] using this) (by simp only [keepKids', List.flatMap_cons, List.flatMap_nil, List.replicate_zero, List.replicate_succ, List.getElem?_cons_zero, List.getElem?_cons_succ, Bool.false_eq_true, if_true, if_false, List.append_nil, List.nil_append, List.cons_append, List.append_assoc, kidsOf_nd] <;> rfl)

theorem y_322 {n : Nat} {c0 : Tree} {w0 : List Tok} {t1 : List Tree} {w1 : List Tok} {t2 : List Tree} {w2 : List Tok} (h0 : Y N.«pair» c0 w0 (nextT w1 (nextT w2 n))) (h1 : Y N.«__object_star_9» (nd "__object_star_9" t1) w1 (nextT w2 n)) (h2 : Y N.«__child_resource_plus_3» (nd "__child_resource_plus_3" t2) w2 n) :
    Y N.«__object_star_10» (nd "__object_star_10" (c0 :: (t1 ++ t2))) (w0 ++ (w1 ++ w2)) n :=
  Y.node ⟨N.«__object_star_10», [N.«pair», N.«__object_star_9», N.«__child_resource_plus_3»], "__object_star_10", false, [(0, false, 0), (1, true, 0), (2, true, 0)], 0⟩ (by decide +kernel) rfl (by decide) (free_plain (by decide) (by decide)) (cs := [c0, nd "__object_star_9" t1, nd "__child_resource_plus_3" t2]) (by have : YL [N.«pair», N.«__object_star_9», N.«__child_resource_plus_3»] [c0, nd "__object_star_9" t1, nd "__child_resource_plus_3" t2] (w0 ++ (w1 ++ (w2 ++ ([])))) n := (.nt (by simpa only [List.append_assoc, List.nil_append, List.append_nil, List.cons_append, nextT_append, nextT_cons, nextT_nil] using h0) (.nt (by simpa only [List.append_assoc, List.nil_append, List.append_nil, List.cons_append, nextT_append, nextT_cons, nextT_nil] using h1) (.nt (by simpa only [List.append_assoc, List.nil_append, List.append_nil, List.cons_append, nextT_append, nextT_cons, nextT_nil] using h2) .nil (fun h h' => by first | exact absurd h (by decide) | exact absurd h' (by decide))) (fun h h' => by first | exact absurd h (by decide) | exact absurd h' (by decide))) (fun h h' => by first | exact absurd h (by decide) | exact absurd h' (by decide))); simpa only [List.append_assoc, List.nil_append, List.append_nil, List.cons_append, nextT_append, nextT_cons, nextT_nil] using this) (by simp only [keepKids', List.flatMap_cons, List.flatMap_nil, List.replicate_zero, List.replicate_succ, List.getElem?_cons_zero, List.getElem?_cons_succ, Bool.false_eq_true, if_true, if_false, List.append_nil, List.nil_append, List.cons_append, List.append_assoc, kidsOf_nd] <;> rfl)

theorem y_325 {n : Nat} {c0 : Tree} {w0 : List Tok} (h0 : Y N.«pair» c0 w0 n) :
    Y N.«__object_star_10» (nd "__object_star_10" [c0]) w0 n :=
  Y.node ⟨N.«__object_star_10», [N.«pair»], "__object_star_10", false, [(0, false, 0)], 0⟩ (by decide +kernel) rfl (by decide) (free_plain (by decide) (by decide)) (cs := [c0]) (by have : YL [N.«pair»] [c0] (w0 ++ ([])) n := (.nt (by simpa only [List.append_assoc, List.nil_append, List.append_nil, List.cons_append, nextT_append, nextT_cons, nextT_nil] using h0) .nil (fun h h' => by first | exact absurd h (by decide) | exact absurd h' (by decide))); simpa only [List.append_assoc, List.nil_append, List.append_nil, List.cons_append, nextT_append, nextT_cons, nextT_nil] using this) (by simp only [keepKids', List.flatMap_cons, List.flatMap_nil, List.replicate_zero, List.replicate_succ, List.getElem?_cons_zero, List.getElem?_cons_succ, Bool.false_eq_true, if_true, if_false, List.append_nil, List.nil_append, List.cons_append, List.append_assoc, kidsOf_nd] <;> rfl)

theorem y_328 {n : Nat} {t0 : List Tree} {w0 : List Tok} {c1 : Tree} {w1 : List Tok} {t2 : List Tree} {w2 : List Tok} {t3 : List Tree} {w3 : List Tok} (h0 : Y N.«__object_star_10» (nd "__object_star_10" t0) w0 (nextT w1 (nextT w2 (nextT w3 n)))) (h1 : Y N.«pair» c1 w1 (nextT w2 (nextT w3 n))) (h2 : Y N.«__object_star_9» (nd "__object_star_9" t2) w2 (nextT w3 n)) (h3 : Y N.«__child_resource_plus_3» (nd "__child_resource_plus_3" t3) w3 n) :
    Y N.«__object_star_10» (nd "__object_star_10" (t0 ++ (c1 :: (t2 ++ t3)))) (w0 ++ (w1 ++ (w2 ++ w3))) n :=
  Y.node ⟨N.«__object_star_10», [N.«__object_star_10», N.«pair», N.«__object_star_9», N.«__child_resource_plus_3»], "__object_star_10", false, [(0, true, 0), (1, false, 0), (2, true, 0), (3, true, 0)], 0⟩ (by decide +kernel) rfl (by decide) (free_plain (by decide) (by decide)) (cs := [nd "__object_star_10" t0, c1, nd "__object_star_9" t2, nd "__child_resource_plus_3" t3]) (by have : YL [N.«__object_star_10», N.«pair», N.«__object_star_9», N.«__child_resource_plus_3»] [nd "__object_star_10" t0, c1, nd "__object_star_9" t2, nd "__child_resource_plus_3" t3] (w0 ++ (w1 ++ (w2 ++ (w3 ++ ([]))))) n := (.nt (by simpa only [List.append_assoc, List.nil_append, List.append_nil, List.cons_append, nextT_append, nextT_cons, nextT_nil] using h0) (.nt (by simpa only [List.append_assoc, List.nil_append, List.append_nil, List.cons_append, nextT_append, nextT_cons, nextT_nil] using h1) (.nt (by simpa only [List.append_assoc, List.nil_append, List.append_nil, List.cons_append, nextT_append, nextT_cons, nextT_nil] using h2) (.nt (by simpa only [List.append_assoc, List.nil_append, List.append_nil, List.cons_append, nextT_append, nextT_cons, nextT_nil] using h3) .nil (fun h h' => by first | exact absurd h (by decide) | exact absurd h' (by decide))) (fun h h' => by first | exact absurd h (by decide) | exact absurd h' (by decide))) (fun h h' => by first | exact absurd h (by decide) | exact absurd h' (by decide))) (fun h h' => by first | exact absurd h (by decide) | exact absurd h' (by decide))); simpa only [List.append_assoc, List.nil_append, List.append_nil, List.cons_append, nextT_append, nextT_cons, nextT_nil] using this) (by simp only [keepKids', List.flatMap_cons, List.flatMap_nil, List.replicate_zero, List.replicate_succ, List.getElem?_cons_zero, List.getElem?_cons_succ, Bool.false_eq_true, if_true, if_false, List.append_nil, List.nil_append, List.cons_append, List.append_assoc, kidsOf_nd] <;> rfl)

theorem y_331 {n : Nat} {t0 : List Tree} {w0 : List Tok} {c1 : Tree} {w1 : List Tok} (h0 : Y N.«__object_star_10» (nd "__object_star_10" t0) w0 (nextT w1 n)) (h1 : Y N.«pair» c1 w1 n) :
    Y N.«__object_star_10» (nd "__object_star_10" (t0 ++ [c1])) (w0 ++ w1) n :=
  Y.node ⟨N.«__object_star_10», [N.«__object_star_10», N.«pair»], "__object_star_10", false, [(0, true, 0), (1, false, 0)], 0⟩ (by decide +kernel) rfl (by decide) (free_plain (by decide) (by decide)) (cs := [nd "__object_star_10" t0, c1]) (by have : YL [N.«__object_star_10», N.«pair»] [nd "__object_star_10" t0, c1] (w0 ++ (w1 ++ ([]))) n := (.nt (by simpa only [List.append_assoc, List.nil_append, List.append_nil, List.cons_append, nextT_append, nextT_cons, nextT_nil] using h0) (.nt (by simpa only [List.append_assoc, List.nil_append, List.append_nil, List.cons_append, nextT_append, nextT_cons, nextT_nil] using h1) .nil (fun h h' => by first | exact absurd h (by decide) | exact absurd h' (by decide))) (fun h h' => by first | exact absurd h (by decide) | exact absurd h' (by decide))); simpa only [List.append_assoc, List.nil_append, List.append_nil, List.cons_append, nextT_append, nextT_cons, nextT_nil] using this) (by simp only [keepKids', List.flatMap_cons, List.flatMap_nil, List.replicate_zero, List.replicate_succ, List.getElem?_cons_zero, List.getElem?_cons_succ, Bool.false_eq_true, if_true, if_false, List.append_nil, List.nil_append, List.cons_append, List.append_assoc, kidsOf_nd] <;> rfl)

theorem y_334 {n : Nat} {c0 : Tree} {w0 : List Tok} (h0 : Y N.«decorator» c0 w0 n) :
    Y N.«__decorators_plus_11» (nd "__decorators_plus_11" [c0]) w0 n :=
  Y.node ⟨N.«__decorators_plus_11», [N.«decorator»], "__decorators_plus_11", false, [(0, false, 0)], 0⟩ (by decide +kernel) rfl (by decide) (free_plain (by decide) (by decide)) (cs := [c0]) (by have : YL [N.«decorator»] [c0] (w0 ++ ([])) n := (.nt (by simpa only [List.append_assoc, List.nil_append, List.append_nil, List.cons_append, nextT_append, nextT_cons, nextT_nil] using h0) .nil (fun h h' => by first | exact absurd h (by decide) | exact absurd h' (by decide))); simpa only [List.append_assoc, List.nil_append, List.append_nil, List.cons_append, nextT_append, nextT_cons, nextT_nil] using this) (by simp only [keepKids', List.flatMap_cons, List.flatMap_nil, List.replicate_zero, List.replicate_succ, List.getElem?_cons_zero, List.getElem?_cons_succ, Bool.false_eq_true, if_true, if_false, List.append_nil, List.nil_append, List.cons_append, List.append_assoc, kidsOf_nd] <;> rfl)

theorem y_337 {n : Nat} {u0 : Tok} {c1 : Tree} {w1 : List Tok} (k0 : u0.type = T.«COMMA») (h1 : Y N.«value_brackets» c1 w1 n) (hn : NoInfix n) :
    Y N.«__function_star_12» (nd "__function_star_12" [c1]) (u0 :: w1) n :=
  Y.node ⟨N.«__function_star_12», [T.«COMMA», N.«value_brackets»], "__function_star_12", false, [(1, false, 0)], 0⟩ (by decide +kernel) rfl (by decide) (free_infix (by decide) hn) (cs := [tk T.«COMMA» u0.text, c1]) (by have : YL [T.«COMMA», N.«value_brackets»] [tk T.«COMMA» u0.text, c1] (u0 :: (w1 ++ ([]))) n := (.tok k0 (by decide) (.nt (by simpa only [List.append_assoc, List.nil_append, List.append_nil, List.cons_append, nextT_append, nextT_cons, nextT_nil] using h1) .nil (fun h h' => by first | exact absurd h (by decide) | exact absurd h' (by decide)))); simpa only [List.append_assoc, List.nil_append, List.append_nil, List.cons_append, nextT_append, nextT_cons, nextT_nil] using this) (by simp only [keepKids', List.flatMap_cons, List.flatMap_nil, List.replicate_zero, List.replicate_succ, List.getElem?_cons_zero, List.getElem?_cons_succ, Bool.false_eq_true, if_true, if_false, List.append_nil, List.nil_append, List.cons_append, List.append_assoc, kidsOf_nd] <;> rfl)

theorem y_340 {n : Nat} {u0 : Tok} {c1 : Tree} {w1 : List Tok} (k0 : u0.type = T.«COMMA») (h1 : Y N.«value_brackets» c1 w1 n) (hn : NoInfix n) :
    Y N.«__function_accessor_plus_13» (nd "__function_accessor_plus_13" [c1]) (u0 :: w1) n :=
  Y.node ⟨N.«__function_accessor_plus_13», [T.«COMMA», N.«value_brackets»], "__function_accessor_plus_13", false, [(1, false, 0)], 0⟩ (by decide +kernel) rfl (by decide) (free_infix (by decide) hn) (cs := [tk T.«COMMA» u0.text, c1]) (by have : YL [T.«COMMA», N.«value_brackets»] [tk T.«COMMA» u0.text, c1] (u0 :: (w1 ++ ([]))) n := (.tok k0 (by decide) (.nt (by simpa only [List.append_assoc, List.nil_append, List.append_nil, List.cons_append, nextT_append, nextT_cons, nextT_nil] using h1) .nil (fun h h' => by first | exact absurd h (by decide) | exact absurd h' (by decide)))); simpa only [List.append_assoc, List.nil_append, List.append_nil, List.cons_append, nextT_append, nextT_cons, nextT_nil] using this) (by simp only [keepKids', List.flatMap_cons, List.flatMap_nil, List.replicate_zero, List.replicate_succ, List.getElem?_cons_zero, List.getElem?_cons_succ, Bool.false_eq_true, if_true, if_false, List.append_nil, List.nil_append, List.cons_append, List.append_assoc, kidsOf_nd] <;> rfl)

end Pycep
