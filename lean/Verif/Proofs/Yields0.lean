import Verif.Proofs.YieldBase
/-
GENERATED by tools/gen_yields.py.
Building the node of each grammar rule from the trees of its right-hand side.
-/
set_option linter.all false
namespace Pycep
theorem y_0 {n : Nat} {t0 : List Tree} {w0 : List Tok} (h0 : Y N.«__start_star_0» (nd "__start_star_0" t0) w0 n) :
    Y N.«start» (nd "start" t0) w0 n :=
  Y.node ⟨N.«start», [N.«__start_star_0»], "start", false, [(0, true, 0)], 0⟩ (by decide +kernel) rfl (by decide) (free_plain (by decide) (by decide)) (cs := [nd "__start_star_0" t0]) (by have : YL [N.«__start_star_0»] [nd "__start_star_0" t0] (w0 ++ ([])) n := (.nt (by simpa only [List.append_assoc, List.nil_append, List.append_nil, List.cons_append, nextT_append, nextT_cons, nextT_nil] using h0) .nil (fun h h' => by first | exact absurd h (by decide) | exact absurd h' (by decide))); simpa only [List.append_assoc, List.nil_append, List.append_nil, List.cons_append, nextT_append, nextT_cons, nextT_nil] using this) (by simp only [keepKids', List.flatMap_cons, List.flatMap_nil, List.replicate_zero, List.replicate_succ, List.getElem?_cons_zero, List.getElem?_cons_succ, Bool.false_eq_true, if_true, if_false, List.append_nil, List.nil_append, List.cons_append, List.append_assoc, kidsOf_nd] <;> rfl)

theorem y_3 {n : Nat} {u0 : Tok} {t1 : List Tree} {w1 : List Tok} (k0 : u0.type = T.«IMPORT») (h1 : Y N.«_import_statement» (nd "_import_statement" t1) w1 n) {l : Lines} (hl : LinesOf l (u0 :: w1)) :
    Y N.«element» (ndl "custom_import" t1 l) (u0 :: w1) n :=
  Y.nodeL ⟨N.«element», [T.«IMPORT», N.«_import_statement»], "custom_import", false, [(1, true, 0)], 0⟩ (by decide +kernel) rfl (by decide) (free_plain (by decide) (by decide)) hl (cs := [tk T.«IMPORT» u0.text, nd "_import_statement" t1]) (by have : YL [T.«IMPORT», N.«_import_statement»] [tk T.«IMPORT» u0.text, nd "_import_statement" t1] (u0 :: (w1 ++ ([]))) n := (.tok k0 (by decide) (.nt (by simpa only [List.append_assoc, List.nil_append, List.append_nil, List.cons_append, nextT_append, nextT_cons, nextT_nil] using h1) .nil (fun h h' => by first | exact absurd h (by decide) | exact absurd h' (by decide)))); simpa only [List.append_assoc, List.nil_append, List.append_nil, List.cons_append, nextT_append, nextT_cons, nextT_nil] using this) (by simp only [keepKids', List.flatMap_cons, List.flatMap_nil, List.replicate_zero, List.replicate_succ, List.getElem?_cons_zero, List.getElem?_cons_succ, Bool.false_eq_true, if_true, if_false, List.append_nil, List.nil_append, List.cons_append, List.append_assoc, kidsOf_nd] <;> rfl)

theorem y_6 {n : Nat} {u0 : Tok} {u1 : Tok} {u2 : Tok} {u3 : Tok} (k0 : u0.type = T.«EXTENSION») (k1 : u1.type = T.«STRING») (k2 : u2.type = T.«AS») (k3 : u3.type = T.«STRING») {l : Lines} (hl : LinesOf l (u0 :: (u1 :: (u2 :: [u3])))) :
    Y N.«element» (ndl "extension" (tk T.«STRING» u1.text :: (Tree.none :: [tk T.«STRING» u3.text])) l) (u0 :: (u1 :: (u2 :: [u3]))) n :=
  Y.nodeL ⟨N.«element», [T.«EXTENSION», T.«STRING», T.«AS», T.«STRING»], "extension", false, [(1, false, 0), (3, false, 1)], 0⟩ (by decide +kernel) rfl (by decide) (free_plain (by decide) (by decide)) hl (cs := [tk T.«EXTENSION» u0.text, tk T.«STRING» u1.text, tk T.«AS» u2.text, tk T.«STRING» u3.text]) (by have : YL [T.«EXTENSION», T.«STRING», T.«AS», T.«STRING»] [tk T.«EXTENSION» u0.text, tk T.«STRING» u1.text, tk T.«AS» u2.text, tk T.«STRING» u3.text] (u0 :: (u1 :: (u2 :: (u3 :: ([]))))) n := (.tok k0 (by decide) (.tok k1 (by decide) (.tok k2 (by decide) (.tok k3 (by decide) .nil)))); simpa only [List.append_assoc, List.nil_append, List.append_nil, List.cons_append, nextT_append, nextT_cons, nextT_nil] using this) (by simp only [keepKids', List.flatMap_cons, List.flatMap_nil, List.replicate_zero, List.replicate_succ, List.getElem?_cons_zero, List.getElem?_cons_succ, Bool.false_eq_true, if_true, if_false, List.append_nil, List.nil_append, List.cons_append, List.append_assoc, kidsOf_nd] <;> rfl)

theorem y_9 {n : Nat} {c0 : Tree} {w0 : List Tok} {u1 : Tok} {u2 : Tok} {c3 : Tree} {w3 : List Tok} {u4 : Tok} {u5 : Tok} {c6 : Tree} {w6 : List Tok} (h0 : Y N.«decorators» c0 w0 u1.type) (k1 : u1.type = T.«PARAM») (k2 : u2.type = T.«STRING») (h3 : Y N.«data_type» c3 w3 u4.type) (k4 : u4.type = T.«QMARK») (k5 : u5.type = T.«EQUAL») (h6 : Y N.«value_brackets» c6 w6 n) (hn : NoInfix n) {l : Lines} (hl : LinesOf l (w0 ++ (u1 :: (u2 :: (w3 ++ (u4 :: (u5 :: w6))))))) :
    Y N.«element» (ndl "param" (c0 :: (tk T.«STRING» u2.text :: (c3 :: [c6]))) l) (w0 ++ (u1 :: (u2 :: (w3 ++ (u4 :: (u5 :: w6)))))) n :=
  Y.nodeL ⟨N.«element», [N.«decorators», T.«PARAM», T.«STRING», N.«data_type», T.«QMARK», T.«EQUAL», N.«value_brackets»], "param", false, [(0, false, 0), (2, false, 0), (3, false, 0), (6, false, 0)], 0⟩ (by decide +kernel) rfl (by decide) (free_infix (by decide) hn) hl (cs := [c0, tk T.«PARAM» u1.text, tk T.«STRING» u2.text, c3, tk T.«QMARK» u4.text, tk T.«EQUAL» u5.text, c6]) (by have : YL [N.«decorators», T.«PARAM», T.«STRING», N.«data_type», T.«QMARK», T.«EQUAL», N.«value_brackets»] [c0, tk T.«PARAM» u1.text, tk T.«STRING» u2.text, c3, tk T.«QMARK» u4.text, tk T.«EQUAL» u5.text, c6] (w0 ++ (u1 :: (u2 :: (w3 ++ (u4 :: (u5 :: (w6 ++ ([])))))))) n := (.nt (by simpa only [List.append_assoc, List.nil_append, List.append_nil, List.cons_append, nextT_append, nextT_cons, nextT_nil] using h0) (.tok k1 (by decide) (.tok k2 (by decide) (.nt (by simpa only [List.append_assoc, List.nil_append, List.append_nil, List.cons_append, nextT_append, nextT_cons, nextT_nil] using h3) (.tok k4 (by decide) (.tok k5 (by decide) (.nt (by simpa only [List.append_assoc, List.nil_append, List.append_nil, List.cons_append, nextT_append, nextT_cons, nextT_nil] using h6) .nil (fun h h' => by first | exact absurd h (by decide) | exact absurd h' (by decide))))) (fun h h' => by first | exact absurd h (by decide) | exact absurd h' (by decide))))) (fun h h' => by first | exact absurd h (by decide) | exact absurd h' (by decide))); simpa only [List.append_assoc, List.nil_append, List.append_nil, List.cons_append, nextT_append, nextT_cons, nextT_nil] using this) (by simp only [keepKids', List.flatMap_cons, List.flatMap_nil, List.replicate_zero, List.replicate_succ, List.getElem?_cons_zero, List.getElem?_cons_succ, Bool.false_eq_true, if_true, if_false, List.append_nil, List.nil_append, List.cons_append, List.append_assoc, kidsOf_nd] <;> rfl)

theorem y_12 {n : Nat} {c0 : Tree} {w0 : List Tok} {u1 : Tok} {u2 : Tok} {c3 : Tree} {w3 : List Tok} (h0 : Y N.«decorators» c0 w0 u1.type) (k1 : u1.type = T.«PARAM») (k2 : u2.type = T.«STRING») (h3 : Y N.«data_type» c3 w3 n) {l : Lines} (hl : LinesOf l (w0 ++ (u1 :: (u2 :: w3)))) :
    Y N.«element» (ndl "param" (c0 :: (tk T.«STRING» u2.text :: (c3 :: [Tree.none]))) l) (w0 ++ (u1 :: (u2 :: w3))) n :=
  Y.nodeL ⟨N.«element», [N.«decorators», T.«PARAM», T.«STRING», N.«data_type»], "param", false, [(0, false, 0), (2, false, 0), (3, false, 0)], 1⟩ (by decide +kernel) rfl (by decide) (free_plain (by decide) (by decide)) hl (cs := [c0, tk T.«PARAM» u1.text, tk T.«STRING» u2.text, c3]) (by have : YL [N.«decorators», T.«PARAM», T.«STRING», N.«data_type»] [c0, tk T.«PARAM» u1.text, tk T.«STRING» u2.text, c3] (w0 ++ (u1 :: (u2 :: (w3 ++ ([]))))) n := (.nt (by simpa only [List.append_assoc, List.nil_append, List.append_nil, List.cons_append, nextT_append, nextT_cons, nextT_nil] using h0) (.tok k1 (by decide) (.tok k2 (by decide) (.nt (by simpa only [List.append_assoc, List.nil_append, List.append_nil, List.cons_append, nextT_append, nextT_cons, nextT_nil] using h3) .nil (fun h h' => by first | exact absurd h (by decide) | exact absurd h' (by decide))))) (fun h h' => by first | exact absurd h (by decide) | exact absurd h' (by decide))); simpa only [List.append_assoc, List.nil_append, List.append_nil, List.cons_append, nextT_append, nextT_cons, nextT_nil] using this) (by simp only [keepKids', List.flatMap_cons, List.flatMap_nil, List.replicate_zero, List.replicate_succ, List.getElem?_cons_zero, List.getElem?_cons_succ, Bool.false_eq_true, if_true, if_false, List.append_nil, List.nil_append, List.cons_append, List.append_assoc, kidsOf_nd] <;> rfl)

theorem y_15 {n : Nat} {u0 : Tok} {u1 : Tok} {c2 : Tree} {w2 : List Tok} {u3 : Tok} {c4 : Tree} {w4 : List Tok} (k0 : u0.type = T.«PARAM») (k1 : u1.type = T.«STRING») (h2 : Y N.«data_type» c2 w2 u3.type) (k3 : u3.type = T.«EQUAL») (h4 : Y N.«value_brackets» c4 w4 n) (hn : NoInfix n) {l : Lines} (hl : LinesOf l (u0 :: (u1 :: (w2 ++ (u3 :: w4))))) :
    Y N.«element» (ndl "param" (Tree.none :: (tk T.«STRING» u1.text :: (c2 :: [c4]))) l) (u0 :: (u1 :: (w2 ++ (u3 :: w4)))) n :=
  Y.nodeL ⟨N.«element», [T.«PARAM», T.«STRING», N.«data_type», T.«EQUAL», N.«value_brackets»], "param", false, [(1, false, 1), (2, false, 0), (4, false, 0)], 0⟩ (by decide +kernel) rfl (by decide) (free_infix (by decide) hn) hl (cs := [tk T.«PARAM» u0.text, tk T.«STRING» u1.text, c2, tk T.«EQUAL» u3.text, c4]) (by have : YL [T.«PARAM», T.«STRING», N.«data_type», T.«EQUAL», N.«value_brackets»] [tk T.«PARAM» u0.text, tk T.«STRING» u1.text, c2, tk T.«EQUAL» u3.text, c4] (u0 :: (u1 :: (w2 ++ (u3 :: (w4 ++ ([])))))) n := (.tok k0 (by decide) (.tok k1 (by decide) (.nt (by simpa only [List.append_assoc, List.nil_append, List.append_nil, List.cons_append, nextT_append, nextT_cons, nextT_nil] using h2) (.tok k3 (by decide) (.nt (by simpa only [List.append_assoc, List.nil_append, List.append_nil, List.cons_append, nextT_append, nextT_cons, nextT_nil] using h4) .nil (fun h h' => by first | exact absurd h (by decide) | exact absurd h' (by decide)))) (fun h h' => by first | exact absurd h (by decide) | exact absurd h' (by decide))))); simpa only [List.append_assoc, List.nil_append, List.append_nil, List.cons_append, nextT_append, nextT_cons, nextT_nil] using this) (by simp only [keepKids', List.flatMap_cons, List.flatMap_nil, List.replicate_zero, List.replicate_succ, List.getElem?_cons_zero, List.getElem?_cons_succ, Bool.false_eq_true, if_true, if_false, List.append_nil, List.nil_append, List.cons_append, List.append_assoc, kidsOf_nd] <;> rfl)

theorem y_18 {n : Nat} {c0 : Tree} {w0 : List Tok} {u1 : Tok} {u2 : Tok} {c3 : Tree} {w3 : List Tok} {u4 : Tok} {c5 : Tree} {w5 : List Tok} (h0 : Y N.«decorators» c0 w0 u1.type) (k1 : u1.type = T.«VAR») (k2 : u2.type = T.«STRING») (h3 : Y N.«data_type» c3 w3 u4.type) (k4 : u4.type = T.«EQUAL») (h5 : Y N.«var_value» c5 w5 n) {l : Lines} (hl : LinesOf l (w0 ++ (u1 :: (u2 :: (w3 ++ (u4 :: w5)))))) :
    Y N.«element» (ndl "var" (c0 :: (tk T.«STRING» u2.text :: (c3 :: [c5]))) l) (w0 ++ (u1 :: (u2 :: (w3 ++ (u4 :: w5))))) n :=
  Y.nodeL ⟨N.«element», [N.«decorators», T.«VAR», T.«STRING», N.«data_type», T.«EQUAL», N.«var_value»], "var", false, [(0, false, 0), (2, false, 0), (3, false, 0), (5, false, 0)], 0⟩ (by decide +kernel) rfl (by decide) (free_plain (by decide) (by decide)) hl (cs := [c0, tk T.«VAR» u1.text, tk T.«STRING» u2.text, c3, tk T.«EQUAL» u4.text, c5]) (by have : YL [N.«decorators», T.«VAR», T.«STRING», N.«data_type», T.«EQUAL», N.«var_value»] [c0, tk T.«VAR» u1.text, tk T.«STRING» u2.text, c3, tk T.«EQUAL» u4.text, c5] (w0 ++ (u1 :: (u2 :: (w3 ++ (u4 :: (w5 ++ ([]))))))) n := (.nt (by simpa only [List.append_assoc, List.nil_append, List.append_nil, List.cons_append, nextT_append, nextT_cons, nextT_nil] using h0) (.tok k1 (by decide) (.tok k2 (by decide) (.nt (by simpa only [List.append_assoc, List.nil_append, List.append_nil, List.cons_append, nextT_append, nextT_cons, nextT_nil] using h3) (.tok k4 (by decide) (.nt (by simpa only [List.append_assoc, List.nil_append, List.append_nil, List.cons_append, nextT_append, nextT_cons, nextT_nil] using h5) .nil (fun h h' => by first | exact absurd h (by decide) | exact absurd h' (by decide)))) (fun h h' => by first | exact absurd h (by decide) | exact absurd h' (by decide))))) (fun h h' => by first | exact absurd h (by decide) | exact absurd h' (by decide))); simpa only [List.append_assoc, List.nil_append, List.append_nil, List.cons_append, nextT_append, nextT_cons, nextT_nil] using this) (by simp only [keepKids', List.flatMap_cons, List.flatMap_nil, List.replicate_zero, List.replicate_succ, List.getElem?_cons_zero, List.getElem?_cons_succ, Bool.false_eq_true, if_true, if_false, List.append_nil, List.nil_append, List.cons_append, List.append_assoc, kidsOf_nd] <;> rfl)

theorem y_21 {n : Nat} {u0 : Tok} {u1 : Tok} {c2 : Tree} {w2 : List Tok} {u3 : Tok} {c4 : Tree} {w4 : List Tok} (k0 : u0.type = T.«VAR») (k1 : u1.type = T.«STRING») (h2 : Y N.«data_type» c2 w2 u3.type) (k3 : u3.type = T.«EQUAL») (h4 : Y N.«var_value» c4 w4 n) {l : Lines} (hl : LinesOf l (u0 :: (u1 :: (w2 ++ (u3 :: w4))))) :
    Y N.«element» (ndl "var" (Tree.none :: (tk T.«STRING» u1.text :: (c2 :: [c4]))) l) (u0 :: (u1 :: (w2 ++ (u3 :: w4)))) n :=
  Y.nodeL ⟨N.«element», [T.«VAR», T.«STRING», N.«data_type», T.«EQUAL», N.«var_value»], "var", false, [(1, false, 1), (2, false, 0), (4, false, 0)], 0⟩ (by decide +kernel) rfl (by decide) (free_plain (by decide) (by decide)) hl (cs := [tk T.«VAR» u0.text, tk T.«STRING» u1.text, c2, tk T.«EQUAL» u3.text, c4]) (by have : YL [T.«VAR», T.«STRING», N.«data_type», T.«EQUAL», N.«var_value»] [tk T.«VAR» u0.text, tk T.«STRING» u1.text, c2, tk T.«EQUAL» u3.text, c4] (u0 :: (u1 :: (w2 ++ (u3 :: (w4 ++ ([])))))) n := (.tok k0 (by decide) (.tok k1 (by decide) (.nt (by simpa only [List.append_assoc, List.nil_append, List.append_nil, List.cons_append, nextT_append, nextT_cons, nextT_nil] using h2) (.tok k3 (by decide) (.nt (by simpa only [List.append_assoc, List.nil_append, List.append_nil, List.cons_append, nextT_append, nextT_cons, nextT_nil] using h4) .nil (fun h h' => by first | exact absurd h (by decide) | exact absurd h' (by decide)))) (fun h h' => by first | exact absurd h (by decide) | exact absurd h' (by decide))))); simpa only [List.append_assoc, List.nil_append, List.append_nil, List.cons_append, nextT_append, nextT_cons, nextT_nil] using this) (by simp only [keepKids', List.flatMap_cons, List.flatMap_nil, List.replicate_zero, List.replicate_succ, List.getElem?_cons_zero, List.getElem?_cons_succ, Bool.false_eq_true, if_true, if_false, List.append_nil, List.nil_append, List.cons_append, List.append_assoc, kidsOf_nd] <;> rfl)

theorem y_24 {n : Nat} {c0 : Tree} {w0 : List Tok} {u1 : Tok} {u2 : Tok} {c3 : Tree} {w3 : List Tok} {u4 : Tok} {c5 : Tree} {w5 : List Tok} (h0 : Y N.«decorators» c0 w0 u1.type) (k1 : u1.type = T.«OUTPUT») (k2 : u2.type = T.«STRING») (h3 : Y N.«data_type» c3 w3 u4.type) (k4 : u4.type = T.«EQUAL») (h5 : Y N.«output_value» c5 w5 n) {l : Lines} (hl : LinesOf l (w0 ++ (u1 :: (u2 :: (w3 ++ (u4 :: w5)))))) :
    Y N.«element» (ndl "output" (c0 :: (tk T.«STRING» u2.text :: (c3 :: [c5]))) l) (w0 ++ (u1 :: (u2 :: (w3 ++ (u4 :: w5))))) n :=
  Y.nodeL ⟨N.«element», [N.«decorators», T.«OUTPUT», T.«STRING», N.«data_type», T.«EQUAL», N.«output_value»], "output", false, [(0, false, 0), (2, false, 0), (3, false, 0), (5, false, 0)], 0⟩ (by decide +kernel) rfl (by decide) (free_plain (by decide) (by decide)) hl (cs := [c0, tk T.«OUTPUT» u1.text, tk T.«STRING» u2.text, c3, tk T.«EQUAL» u4.text, c5]) (by have : YL [N.«decorators», T.«OUTPUT», T.«STRING», N.«data_type», T.«EQUAL», N.«output_value»] [c0, tk T.«OUTPUT» u1.text, tk T.«STRING» u2.text, c3, tk T.«EQUAL» u4.text, c5] (w0 ++ (u1 :: (u2 :: (w3 ++ (u4 :: (w5 ++ ([]))))))) n := (.nt (by simpa only [List.append_assoc, List.nil_append, List.append_nil, List.cons_append, nextT_append, nextT_cons, nextT_nil] using h0) (.tok k1 (by decide) (.tok k2 (by decide) (.nt (by simpa only [List.append_assoc, List.nil_append, List.append_nil, List.cons_append, nextT_append, nextT_cons, nextT_nil] using h3) (.tok k4 (by decide) (.nt (by simpa only [List.append_assoc, List.nil_append, List.append_nil, List.cons_append, nextT_append, nextT_cons, nextT_nil] using h5) .nil (fun h h' => by first | exact absurd h (by decide) | exact absurd h' (by decide)))) (fun h h' => by first | exact absurd h (by decide) | exact absurd h' (by decide))))) (fun h h' => by first | exact absurd h (by decide) | exact absurd h' (by decide))); simpa only [List.append_assoc, List.nil_append, List.append_nil, List.cons_append, nextT_append, nextT_cons, nextT_nil] using this) (by simp only [keepKids', List.flatMap_cons, List.flatMap_nil, List.replicate_zero, List.replicate_succ, List.getElem?_cons_zero, List.getElem?_cons_succ, Bool.false_eq_true, if_true, if_false, List.append_nil, List.nil_append, List.cons_append, List.append_assoc, kidsOf_nd] <;> rfl)

theorem y_27 {n : Nat} {c0 : Tree} {w0 : List Tok} {u1 : Tok} {u2 : Tok} {c3 : Tree} {w3 : List Tok} {u4 : Tok} {u5 : Tok} {c6 : Tree} {w6 : List Tok} (h0 : Y N.«decorators» c0 w0 u1.type) (k1 : u1.type = T.«RESOURCE») (k2 : u2.type = T.«STRING») (h3 : Y N.«type_api_pair» c3 w3 u4.type) (k4 : u4.type = T.«EXISTING») (k5 : u5.type = T.«EQUAL») (h6 : Y N.«resource_value» c6 w6 n) {l : Lines} (hl : LinesOf l (w0 ++ (u1 :: (u2 :: (w3 ++ (u4 :: (u5 :: w6))))))) :
    Y N.«element» (ndl "resource" (c0 :: (tk T.«STRING» u2.text :: (c3 :: (tk T.«EXISTING» u4.text :: [c6])))) l) (w0 ++ (u1 :: (u2 :: (w3 ++ (u4 :: (u5 :: w6)))))) n :=
  Y.nodeL ⟨N.«element», [N.«decorators», T.«RESOURCE», T.«STRING», N.«type_api_pair», T.«EXISTING», T.«EQUAL», N.«resource_value»], "resource", false, [(0, false, 0), (2, false, 0), (3, false, 0), (4, false, 0), (6, false, 0)], 0⟩ (by decide +kernel) rfl (by decide) (free_plain (by decide) (by decide)) hl (cs := [c0, tk T.«RESOURCE» u1.text, tk T.«STRING» u2.text, c3, tk T.«EXISTING» u4.text, tk T.«EQUAL» u5.text, c6]) (by have : YL [N.«decorators», T.«RESOURCE», T.«STRING», N.«type_api_pair», T.«EXISTING», T.«EQUAL», N.«resource_value»] [c0, tk T.«RESOURCE» u1.text, tk T.«STRING» u2.text, c3, tk T.«EXISTING» u4.text, tk T.«EQUAL» u5.text, c6] (w0 ++ (u1 :: (u2 :: (w3 ++ (u4 :: (u5 :: (w6 ++ ([])))))))) n := (.nt (by simpa only [List.append_assoc, List.nil_append, List.append_nil, List.cons_append, nextT_append, nextT_cons, nextT_nil] using h0) (.tok k1 (by decide) (.tok k2 (by decide) (.nt (by simpa only [List.append_assoc, List.nil_append, List.append_nil, List.cons_append, nextT_append, nextT_cons, nextT_nil] using h3) (.tok k4 (by decide) (.tok k5 (by decide) (.nt (by simpa only [List.append_assoc, List.nil_append, List.append_nil, List.cons_append, nextT_append, nextT_cons, nextT_nil] using h6) .nil (fun h h' => by first | exact absurd h (by decide) | exact absurd h' (by decide))))) (fun h h' => by first | exact absurd h (by decide) | exact absurd h' (by decide))))) (fun h h' => by first | exact absurd h (by decide) | exact absurd h' (by decide))); simpa only [List.append_assoc, List.nil_append, List.append_nil, List.cons_append, nextT_append, nextT_cons, nextT_nil] using this) (by simp only [keepKids', List.flatMap_cons, List.flatMap_nil, List.replicate_zero, List.replicate_succ, List.getElem?_cons_zero, List.getElem?_cons_succ, Bool.false_eq_true, if_true, if_false, List.append_nil, List.nil_append, List.cons_append, List.append_assoc, kidsOf_nd] <;> rfl)

theorem y_30 {n : Nat} {u0 : Tok} {u1 : Tok} {c2 : Tree} {w2 : List Tok} {u3 : Tok} {c4 : Tree} {w4 : List Tok} (k0 : u0.type = T.«RESOURCE») (k1 : u1.type = T.«STRING») (h2 : Y N.«type_api_pair» c2 w2 u3.type) (k3 : u3.type = T.«EQUAL») (h4 : Y N.«resource_value» c4 w4 n) {l : Lines} (hl : LinesOf l (u0 :: (u1 :: (w2 ++ (u3 :: w4))))) :
    Y N.«element» (ndl "resource" (Tree.none :: (tk T.«STRING» u1.text :: (c2 :: (Tree.none :: [c4])))) l) (u0 :: (u1 :: (w2 ++ (u3 :: w4)))) n :=
  Y.nodeL ⟨N.«element», [T.«RESOURCE», T.«STRING», N.«type_api_pair», T.«EQUAL», N.«resource_value»], "resource", false, [(1, false, 1), (2, false, 0), (4, false, 1)], 0⟩ (by decide +kernel) rfl (by decide) (free_plain (by decide) (by decide)) hl (cs := [tk T.«RESOURCE» u0.text, tk T.«STRING» u1.text, c2, tk T.«EQUAL» u3.text, c4]) (by have : YL [T.«RESOURCE», T.«STRING», N.«type_api_pair», T.«EQUAL», N.«resource_value»] [tk T.«RESOURCE» u0.text, tk T.«STRING» u1.text, c2, tk T.«EQUAL» u3.text, c4] (u0 :: (u1 :: (w2 ++ (u3 :: (w4 ++ ([])))))) n := (.tok k0 (by decide) (.tok k1 (by decide) (.nt (by simpa only [List.append_assoc, List.nil_append, List.append_nil, List.cons_append, nextT_append, nextT_cons, nextT_nil] using h2) (.tok k3 (by decide) (.nt (by simpa only [List.append_assoc, List.nil_append, List.append_nil, List.cons_append, nextT_append, nextT_cons, nextT_nil] using h4) .nil (fun h h' => by first | exact absurd h (by decide) | exact absurd h' (by decide)))) (fun h h' => by first | exact absurd h (by decide) | exact absurd h' (by decide))))); simpa only [List.append_assoc, List.nil_append, List.append_nil, List.cons_append, nextT_append, nextT_cons, nextT_nil] using this) (by simp only [keepKids', List.flatMap_cons, List.flatMap_nil, List.replicate_zero, List.replicate_succ, List.getElem?_cons_zero, List.getElem?_cons_succ, Bool.false_eq_true, if_true, if_false, List.append_nil, List.nil_append, List.cons_append, List.append_assoc, kidsOf_nd] <;> rfl)

theorem y_33 {n : Nat} {c0 : Tree} {w0 : List Tok} {u1 : Tok} {u2 : Tok} {u3 : Tok} {c4 : Tree} {w4 : List Tok} (h0 : Y N.«decorators» c0 w0 u1.type) (k1 : u1.type = T.«TYPE») (k2 : u2.type = T.«STRING») (k3 : u3.type = T.«EQUAL») (h4 : Y N.«type_value» c4 w4 n) {l : Lines} (hl : LinesOf l (w0 ++ (u1 :: (u2 :: (u3 :: w4))))) :
    Y N.«element» (ndl "custom_type" (c0 :: (tk T.«STRING» u2.text :: [c4])) l) (w0 ++ (u1 :: (u2 :: (u3 :: w4)))) n :=
  Y.nodeL ⟨N.«element», [N.«decorators», T.«TYPE», T.«STRING», T.«EQUAL», N.«type_value»], "custom_type", false, [(0, false, 0), (2, false, 0), (4, false, 0)], 0⟩ (by decide +kernel) rfl (by decide) (free_plain (by decide) (by decide)) hl (cs := [c0, tk T.«TYPE» u1.text, tk T.«STRING» u2.text, tk T.«EQUAL» u3.text, c4]) (by have : YL [N.«decorators», T.«TYPE», T.«STRING», T.«EQUAL», N.«type_value»] [c0, tk T.«TYPE» u1.text, tk T.«STRING» u2.text, tk T.«EQUAL» u3.text, c4] (w0 ++ (u1 :: (u2 :: (u3 :: (w4 ++ ([])))))) n := (.nt (by simpa only [List.append_assoc, List.nil_append, List.append_nil, List.cons_append, nextT_append, nextT_cons, nextT_nil] using h0) (.tok k1 (by decide) (.tok k2 (by decide) (.tok k3 (by decide) (.nt (by simpa only [List.append_assoc, List.nil_append, List.append_nil, List.cons_append, nextT_append, nextT_cons, nextT_nil] using h4) .nil (fun h h' => by first | exact absurd h (by decide) | exact absurd h' (by decide)))))) (fun h h' => by first | exact absurd h (by decide) | exact absurd h' (by decide))); simpa only [List.append_assoc, List.nil_append, List.append_nil, List.cons_append, nextT_append, nextT_cons, nextT_nil] using this) (by simp only [keepKids', List.flatMap_cons, List.flatMap_nil, List.replicate_zero, List.replicate_succ, List.getElem?_cons_zero, List.getElem?_cons_succ, Bool.false_eq_true, if_true, if_false, List.append_nil, List.nil_append, List.cons_append, List.append_assoc, kidsOf_nd] <;> rfl)

theorem y_36 {n : Nat} {u0 : Tok} {t1 : List Tree} {w1 : List Tok} (k0 : u0.type = T.«FUNC») (h1 : Y N.«_func_statement» (nd "_func_statement" t1) w1 n) {l : Lines} (hl : LinesOf l (u0 :: w1)) :
    Y N.«element» (ndl "custom_func" (Tree.none :: t1) l) (u0 :: w1) n :=
  Y.nodeL ⟨N.«element», [T.«FUNC», N.«_func_statement»], "custom_func", false, [(1, true, 1)], 0⟩ (by decide +kernel) rfl (by decide) (free_plain (by decide) (by decide)) hl (cs := [tk T.«FUNC» u0.text, nd "_func_statement" t1]) (by have : YL [T.«FUNC», N.«_func_statement»] [tk T.«FUNC» u0.text, nd "_func_statement" t1] (u0 :: (w1 ++ ([]))) n := (.tok k0 (by decide) (.nt (by simpa only [List.append_assoc, List.nil_append, List.append_nil, List.cons_append, nextT_append, nextT_cons, nextT_nil] using h1) .nil (fun h h' => by first | exact absurd h (by decide) | exact absurd h' (by decide)))); simpa only [List.append_assoc, List.nil_append, List.append_nil, List.cons_append, nextT_append, nextT_cons, nextT_nil] using this) (by simp only [keepKids', List.flatMap_cons, List.flatMap_nil, List.replicate_zero, List.replicate_succ, List.getElem?_cons_zero, List.getElem?_cons_succ, Bool.false_eq_true, if_true, if_false, List.append_nil, List.nil_append, List.cons_append, List.append_assoc, kidsOf_nd] <;> rfl)

theorem y_39 {n : Nat} {u0 : Tok} {u1 : Tok} (k0 : u0.type = T.«_NEWLINE») (k1 : u1.type = T.«TRUE») :
    Y N.«value» (nd "true" []) (u0 :: [u1]) n :=
  Y.node ⟨N.«value», [T.«_NEWLINE», T.«TRUE»], "true", false, [], 0⟩ (by decide +kernel) rfl (by decide) (free_plain (by decide) (by decide)) (cs := [tk T.«_NEWLINE» u0.text, tk T.«TRUE» u1.text]) (by have : YL [T.«_NEWLINE», T.«TRUE»] [tk T.«_NEWLINE» u0.text, tk T.«TRUE» u1.text] (u0 :: (u1 :: ([]))) n := (.tok k0 (by decide) (.tok k1 (by decide) .nil)); simpa only [List.append_assoc, List.nil_append, List.append_nil, List.cons_append, nextT_append, nextT_cons, nextT_nil] using this) (by simp only [keepKids', List.flatMap_cons, List.flatMap_nil, List.replicate_zero, List.replicate_succ, List.getElem?_cons_zero, List.getElem?_cons_succ, Bool.false_eq_true, if_true, if_false, List.append_nil, List.nil_append, List.cons_append, List.append_assoc, kidsOf_nd] <;> rfl)

theorem y_42 {n : Nat} {u0 : Tok} (k0 : u0.type = T.«FALSE») :
    Y N.«value» (nd "false" []) [u0] n :=
  Y.node ⟨N.«value», [T.«FALSE»], "false", false, [], 0⟩ (by decide +kernel) rfl (by decide) (free_plain (by decide) (by decide)) (cs := [tk T.«FALSE» u0.text]) (by have : YL [T.«FALSE»] [tk T.«FALSE» u0.text] (u0 :: ([])) n := (.tok k0 (by decide) .nil); simpa only [List.append_assoc, List.nil_append, List.append_nil, List.cons_append, nextT_append, nextT_cons, nextT_nil] using this) (by simp only [keepKids', List.flatMap_cons, List.flatMap_nil, List.replicate_zero, List.replicate_succ, List.getElem?_cons_zero, List.getElem?_cons_succ, Bool.false_eq_true, if_true, if_false, List.append_nil, List.nil_append, List.cons_append, List.append_assoc, kidsOf_nd] <;> rfl)

theorem y_45 {n : Nat} {u0 : Tok} {u1 : Tok} (k0 : u0.type = T.«_NEWLINE») (k1 : u1.type = T.«STRING») :
    Y N.«value» (nd "string" [tk T.«STRING» u1.text]) (u0 :: [u1]) n :=
  Y.node ⟨N.«value», [T.«_NEWLINE», T.«STRING»], "string", false, [(1, false, 0)], 0⟩ (by decide +kernel) rfl (by decide) (free_plain (by decide) (by decide)) (cs := [tk T.«_NEWLINE» u0.text, tk T.«STRING» u1.text]) (by have : YL [T.«_NEWLINE», T.«STRING»] [tk T.«_NEWLINE» u0.text, tk T.«STRING» u1.text] (u0 :: (u1 :: ([]))) n := (.tok k0 (by decide) (.tok k1 (by decide) .nil)); simpa only [List.append_assoc, List.nil_append, List.append_nil, List.cons_append, nextT_append, nextT_cons, nextT_nil] using this) (by simp only [keepKids', List.flatMap_cons, List.flatMap_nil, List.replicate_zero, List.replicate_succ, List.getElem?_cons_zero, List.getElem?_cons_succ, Bool.false_eq_true, if_true, if_false, List.append_nil, List.nil_append, List.cons_append, List.append_assoc, kidsOf_nd] <;> rfl)

theorem y_48 {n : Nat} {u0 : Tok} (k0 : u0.type = T.«QUOTED_INTERPOLATION») :
    Y N.«value» (nd "string" [tk T.«QUOTED_INTERPOLATION» u0.text]) [u0] n :=
  Y.node ⟨N.«value», [T.«QUOTED_INTERPOLATION»], "string", false, [(0, false, 0)], 0⟩ (by decide +kernel) rfl (by decide) (free_plain (by decide) (by decide)) (cs := [tk T.«QUOTED_INTERPOLATION» u0.text]) (by have : YL [T.«QUOTED_INTERPOLATION»] [tk T.«QUOTED_INTERPOLATION» u0.text] (u0 :: ([])) n := (.tok k0 (by decide) .nil); simpa only [List.append_assoc, List.nil_append, List.append_nil, List.cons_append, nextT_append, nextT_cons, nextT_nil] using this) (by simp only [keepKids', List.flatMap_cons, List.flatMap_nil, List.replicate_zero, List.replicate_succ, List.getElem?_cons_zero, List.getElem?_cons_succ, Bool.false_eq_true, if_true, if_false, List.append_nil, List.nil_append, List.cons_append, List.append_assoc, kidsOf_nd] <;> rfl)

theorem y_51 {n : Nat} {c0 : Tree} {w0 : List Tok} (h0 : Y N.«object» c0 w0 n) (hm : isMeta c0 = false) :
    Y N.«value» (c0) w0 n :=
  Y.ex ⟨N.«value», [N.«object»], "value", true, [(0, false, 0)], 0⟩ (by decide +kernel) rfl (by decide) (free_plain (by decide) (by decide)) (cs := [c0]) (by have : YL [N.«object»] [c0] (w0 ++ ([])) n := (.nt (by simpa only [List.append_assoc, List.nil_append, List.append_nil, List.cons_append, nextT_append, nextT_cons, nextT_nil] using h0) .nil (fun h h' => by first | exact absurd h (by decide) | exact absurd h' (by decide))); simpa only [List.append_assoc, List.nil_append, List.append_nil, List.cons_append, nextT_append, nextT_cons, nextT_nil] using this) (by simp only [keepKids', List.flatMap_cons, List.flatMap_nil, List.replicate_zero, List.replicate_succ, List.getElem?_cons_zero, List.getElem?_cons_succ, Bool.false_eq_true, if_true, if_false, List.append_nil, List.nil_append, List.cons_append, List.append_assoc, kidsOf_nd] <;> rfl) hm

theorem y_54 {n : Nat} {c0 : Tree} {w0 : List Tok} (h0 : Y N.«operator» c0 w0 n) (hm : isMeta c0 = false) :
    Y N.«value» (c0) w0 n :=
  Y.ex ⟨N.«value», [N.«operator»], "value", true, [(0, false, 0)], 0⟩ (by decide +kernel) rfl (by decide) (free_plain (by decide) (by decide)) (cs := [c0]) (by have : YL [N.«operator»] [c0] (w0 ++ ([])) n := (.nt (by simpa only [List.append_assoc, List.nil_append, List.append_nil, List.cons_append, nextT_append, nextT_cons, nextT_nil] using h0) .nil (fun h h' => by first | exact absurd h (by decide) | exact absurd h' (by decide))); simpa only [List.append_assoc, List.nil_append, List.append_nil, List.cons_append, nextT_append, nextT_cons, nextT_nil] using this) (by simp only [keepKids', List.flatMap_cons, List.flatMap_nil, List.replicate_zero, List.replicate_succ, List.getElem?_cons_zero, List.getElem?_cons_succ, Bool.false_eq_true, if_true, if_false, List.append_nil, List.nil_append, List.cons_append, List.append_assoc, kidsOf_nd] <;> rfl) hm

theorem y_57 {n : Nat} {c0 : Tree} {w0 : List Tok} (h0 : Y N.«value» c0 w0 n) (hn : NoBang n) (hm : isMeta c0 = false) :
    Y N.«value_brackets» (c0) w0 n :=
  Y.ex ⟨N.«value_brackets», [N.«value»], "value_brackets", true, [(0, false, 0)], 0⟩ (by decide +kernel) rfl (by decide) (by unfold badNode badReduce; rw [beq_false hn.ne]; rfl) (cs := [c0]) (by have : YL [N.«value»] [c0] (w0 ++ ([])) n := (.nt (by simpa only [List.append_assoc, List.nil_append, List.append_nil, List.cons_append, nextT_append, nextT_cons, nextT_nil] using h0) .nil (fun h h' => by first | exact absurd h (by decide) | exact absurd h' (by decide))); simpa only [List.append_assoc, List.nil_append, List.append_nil, List.cons_append, nextT_append, nextT_cons, nextT_nil] using this) (by simp only [keepKids', List.flatMap_cons, List.flatMap_nil, List.replicate_zero, List.replicate_succ, List.getElem?_cons_zero, List.getElem?_cons_succ, Bool.false_eq_true, if_true, if_false, List.append_nil, List.nil_append, List.cons_append, List.append_assoc, kidsOf_nd] <;> rfl) hm

theorem y_60 {n : Nat} {u0 : Tok} {c1 : Tree} {w1 : List Tok} {t2 : List Tree} {w2 : List Tok} {u3 : Tok} {u4 : Tok} {u5 : Tok} (k0 : u0.type = T.«LBRACE») (h1 : Y N.«import_alias» c1 w1 (nextT w2 u3.type)) (h2 : Y N.«___import_statement_star_1» (nd "___import_statement_star_1" t2) w2 u3.type) (k3 : u3.type = T.«RBRACE») (k4 : u4.type = T.«FROM») (k5 : u5.type = T.«QUOTED_INTERPOLATION») :
    Y N.«_import_statement» (nd "_import_statement" (c1 :: (t2 ++ [tk T.«QUOTED_INTERPOLATION» u5.text]))) (u0 :: (w1 ++ (w2 ++ (u3 :: (u4 :: [u5]))))) n :=
  Y.node ⟨N.«_import_statement», [T.«LBRACE», N.«import_alias», N.«___import_statement_star_1», T.«RBRACE», T.«FROM», T.«QUOTED_INTERPOLATION»], "_import_statement", false, [(1, false, 0), (2, true, 0), (5, false, 0)], 0⟩ (by decide +kernel) rfl (by decide) (free_plain (by decide) (by decide)) (cs := [tk T.«LBRACE» u0.text, c1, nd "___import_statement_star_1" t2, tk T.«RBRACE» u3.text, tk T.«FROM» u4.text, tk T.«QUOTED_INTERPOLATION» u5.text]) (by have : YL [T.«LBRACE», N.«import_alias», N.«___import_statement_star_1», T.«RBRACE», T.«FROM», T.«QUOTED_INTERPOLATION»] [tk T.«LBRACE» u0.text, c1, nd "___import_statement_star_1" t2, tk T.«RBRACE» u3.text, tk T.«FROM» u4.text, tk T.«QUOTED_INTERPOLATION» u5.text] (u0 :: (w1 ++ (w2 ++ (u3 :: (u4 :: (u5 :: ([]))))))) n := (.tok k0 (by decide) (.nt (by simpa only [List.append_assoc, List.nil_append, List.append_nil, List.cons_append, nextT_append, nextT_cons, nextT_nil] using h1) (.nt (by simpa only [List.append_assoc, List.nil_append, List.append_nil, List.cons_append, nextT_append, nextT_cons, nextT_nil] using h2) (.tok k3 (by decide) (.tok k4 (by decide) (.tok k5 (by decide) .nil))) (fun h h' => by first | exact absurd h (by decide) | exact absurd h' (by decide))) (fun h h' => by first | exact absurd h (by decide) | exact absurd h' (by decide)))); simpa only [List.append_assoc, List.nil_append, List.append_nil, List.cons_append, nextT_append, nextT_cons, nextT_nil] using this) (by simp only [keepKids', List.flatMap_cons, List.flatMap_nil, List.replicate_zero, List.replicate_succ, List.getElem?_cons_zero, List.getElem?_cons_succ, Bool.false_eq_true, if_true, if_false, List.append_nil, List.nil_append, List.cons_append, List.append_assoc, kidsOf_nd] <;> rfl)

theorem y_63 {n : Nat} {u0 : Tok} (k0 : u0.type = T.«QUOTED_INTERPOLATION») :
    Y N.«_import_statement» (nd "_import_statement" [tk T.«QUOTED_INTERPOLATION» u0.text]) [u0] n :=
  Y.node ⟨N.«_import_statement», [T.«QUOTED_INTERPOLATION»], "_import_statement", false, [(0, false, 0)], 0⟩ (by decide +kernel) rfl (by decide) (free_plain (by decide) (by decide)) (cs := [tk T.«QUOTED_INTERPOLATION» u0.text]) (by have : YL [T.«QUOTED_INTERPOLATION»] [tk T.«QUOTED_INTERPOLATION» u0.text] (u0 :: ([])) n := (.tok k0 (by decide) .nil); simpa only [List.append_assoc, List.nil_append, List.append_nil, List.cons_append, nextT_append, nextT_cons, nextT_nil] using this) (by simp only [keepKids', List.flatMap_cons, List.flatMap_nil, List.replicate_zero, List.replicate_succ, List.getElem?_cons_zero, List.getElem?_cons_succ, Bool.false_eq_true, if_true, if_false, List.append_nil, List.nil_append, List.cons_append, List.append_assoc, kidsOf_nd] <;> rfl)

theorem y_66 {n : Nat} {u0 : Tok} {u1 : Tok} {u2 : Tok} {c3 : Tree} {w3 : List Tok} {u4 : Tok} {c5 : Tree} {w5 : List Tok} (k0 : u0.type = T.«STRING») (k1 : u1.type = T.«LPAR») (k2 : u2.type = T.«RPAR») (h3 : Y N.«data_type» c3 w3 u4.type) (k4 : u4.type = T.«__ANON_0») (h5 : Y N.«value_brackets» c5 w5 n) (hn : NoInfix n) :
    Y N.«_func_statement» (nd "_func_statement" (tk T.«STRING» u0.text :: (c3 :: [c5]))) (u0 :: (u1 :: (u2 :: (w3 ++ (u4 :: w5))))) n :=
  Y.node ⟨N.«_func_statement», [T.«STRING», T.«LPAR», T.«RPAR», N.«data_type», T.«__ANON_0», N.«value_brackets»], "_func_statement", false, [(0, false, 0), (3, false, 0), (5, false, 0)], 0⟩ (by decide +kernel) rfl (by decide) (free_infix (by decide) hn) (cs := [tk T.«STRING» u0.text, tk T.«LPAR» u1.text, tk T.«RPAR» u2.text, c3, tk T.«__ANON_0» u4.text, c5]) (by have : YL [T.«STRING», T.«LPAR», T.«RPAR», N.«data_type», T.«__ANON_0», N.«value_brackets»] [tk T.«STRING» u0.text, tk T.«LPAR» u1.text, tk T.«RPAR» u2.text, c3, tk T.«__ANON_0» u4.text, c5] (u0 :: (u1 :: (u2 :: (w3 ++ (u4 :: (w5 ++ ([]))))))) n := (.tok k0 (by decide) (.tok k1 (by decide) (.tok k2 (by decide) (.nt (by simpa only [List.append_assoc, List.nil_append, List.append_nil, List.cons_append, nextT_append, nextT_cons, nextT_nil] using h3) (.tok k4 (by decide) (.nt (by simpa only [List.append_assoc, List.nil_append, List.append_nil, List.cons_append, nextT_append, nextT_cons, nextT_nil] using h5) .nil (fun h h' => by first | exact absurd h (by decide) | exact absurd h' (by decide)))) (fun h h' => by first | exact absurd h (by decide) | exact absurd h' (by decide)))))); simpa only [List.append_assoc, List.nil_append, List.append_nil, List.cons_append, nextT_append, nextT_cons, nextT_nil] using this) (by simp only [keepKids', List.flatMap_cons, List.flatMap_nil, List.replicate_zero, List.replicate_succ, List.getElem?_cons_zero, List.getElem?_cons_succ, Bool.false_eq_true, if_true, if_false, List.append_nil, List.nil_append, List.cons_append, List.append_assoc, kidsOf_nd] <;> rfl)

theorem y_69 {n : Nat} {u0 : Tok} (k0 : u0.type = T.«QUOTED_INTERPOLATION») :
    Y N.«metadata_value» (nd "string" [tk T.«QUOTED_INTERPOLATION» u0.text]) [u0] n :=
  Y.node ⟨N.«metadata_value», [T.«QUOTED_INTERPOLATION»], "string", false, [(0, false, 0)], 0⟩ (by decide +kernel) rfl (by decide) (free_plain (by decide) (by decide)) (cs := [tk T.«QUOTED_INTERPOLATION» u0.text]) (by have : YL [T.«QUOTED_INTERPOLATION»] [tk T.«QUOTED_INTERPOLATION» u0.text] (u0 :: ([])) n := (.tok k0 (by decide) .nil); simpa only [List.append_assoc, List.nil_append, List.append_nil, List.cons_append, nextT_append, nextT_cons, nextT_nil] using this) (by simp only [keepKids', List.flatMap_cons, List.flatMap_nil, List.replicate_zero, List.replicate_succ, List.getElem?_cons_zero, List.getElem?_cons_succ, Bool.false_eq_true, if_true, if_false, List.append_nil, List.nil_append, List.cons_append, List.append_assoc, kidsOf_nd] <;> rfl)

theorem y_72 {n : Nat} {c0 : Tree} {w0 : List Tok} (h0 : Y N.«object» c0 w0 n) (hm : isMeta c0 = false) :
    Y N.«resource_value» (c0) w0 n :=
  Y.ex ⟨N.«resource_value», [N.«object»], "resource_value", true, [(0, false, 0)], 0⟩ (by decide +kernel) rfl (by decide) (free_plain (by decide) (by decide)) (cs := [c0]) (by have : YL [N.«object»] [c0] (w0 ++ ([])) n := (.nt (by simpa only [List.append_assoc, List.nil_append, List.append_nil, List.cons_append, nextT_append, nextT_cons, nextT_nil] using h0) .nil (fun h h' => by first | exact absurd h (by decide) | exact absurd h' (by decide))); simpa only [List.append_assoc, List.nil_append, List.append_nil, List.cons_append, nextT_append, nextT_cons, nextT_nil] using this) (by simp only [keepKids', List.flatMap_cons, List.flatMap_nil, List.replicate_zero, List.replicate_succ, List.getElem?_cons_zero, List.getElem?_cons_succ, Bool.false_eq_true, if_true, if_false, List.append_nil, List.nil_append, List.cons_append, List.append_assoc, kidsOf_nd] <;> rfl) hm

theorem y_75 {n : Nat} {c0 : Tree} {w0 : List Tok} (h0 : Y N.«object» c0 w0 n) (hm : isMeta c0 = false) :
    Y N.«module_value» (c0) w0 n :=
  Y.ex ⟨N.«module_value», [N.«object»], "module_value", true, [(0, false, 0)], 0⟩ (by decide +kernel) rfl (by decide) (free_plain (by decide) (by decide)) (cs := [c0]) (by have : YL [N.«object»] [c0] (w0 ++ ([])) n := (.nt (by simpa only [List.append_assoc, List.nil_append, List.append_nil, List.cons_append, nextT_append, nextT_cons, nextT_nil] using h0) .nil (fun h h' => by first | exact absurd h (by decide) | exact absurd h' (by decide))); simpa only [List.append_assoc, List.nil_append, List.append_nil, List.cons_append, nextT_append, nextT_cons, nextT_nil] using this) (by simp only [keepKids', List.flatMap_cons, List.flatMap_nil, List.replicate_zero, List.replicate_succ, List.getElem?_cons_zero, List.getElem?_cons_succ, Bool.false_eq_true, if_true, if_false, List.append_nil, List.nil_append, List.cons_append, List.append_assoc, kidsOf_nd] <;> rfl) hm

theorem y_78 {n : Nat} {u0 : Tok} {u1 : Tok} {u2 : Tok} {u3 : Tok} {u4 : Tok} {c5 : Tree} {w5 : List Tok} {t6 : List Tree} {w6 : List Tok} (k0 : u0.type = T.«RESOURCE») (k1 : u1.type = T.«STRING») (k2 : u2.type = T.«QUOTED_INTERPOLATION») (k3 : u3.type = T.«EXISTING») (k4 : u4.type = T.«EQUAL») (h5 : Y N.«object» c5 w5 (nextT w6 n)) (h6 : Y N.«__child_resource_plus_3» (nd "__child_resource_plus_3" t6) w6 n) (hn : n ≠ T._CPP_COMMENT_NL) {l : Lines} (hl : LinesOf l (u0 :: (u1 :: (u2 :: (u3 :: (u4 :: (w5 ++ w6))))))) :
    Y N.«child_resource» (ndl "child_resource" (tk T.«STRING» u1.text :: (tk T.«QUOTED_INTERPOLATION» u2.text :: (tk T.«EXISTING» u3.text :: (c5 :: t6)))) l) (u0 :: (u1 :: (u2 :: (u3 :: (u4 :: (w5 ++ w6)))))) n :=
  Y.nodeL ⟨N.«child_resource», [T.«RESOURCE», T.«STRING», T.«QUOTED_INTERPOLATION», T.«EXISTING», T.«EQUAL», N.«object», N.«__child_resource_plus_3»], "child_resource", false, [(1, false, 0), (2, false, 0), (3, false, 0), (5, false, 0), (6, true, 0)], 0⟩ (by decide +kernel) rfl (by decide) (by unfold badNode badReduce; rw [beq_false hn]; rfl) hl (cs := [tk T.«RESOURCE» u0.text, tk T.«STRING» u1.text, tk T.«QUOTED_INTERPOLATION» u2.text, tk T.«EXISTING» u3.text, tk T.«EQUAL» u4.text, c5, nd "__child_resource_plus_3" t6]) (by have : YL [T.«RESOURCE», T.«STRING», T.«QUOTED_INTERPOLATION», T.«EXISTING», T.«EQUAL», N.«object», N.«__child_resource_plus_3»] [tk T.«RESOURCE» u0.text, tk T.«STRING» u1.text, tk T.«QUOTED_INTERPOLATION» u2.text, tk T.«EXISTING» u3.text, tk T.«EQUAL» u4.text, c5, nd "__child_resource_plus_3" t6] (u0 :: (u1 :: (u2 :: (u3 :: (u4 :: (w5 ++ (w6 ++ ([])))))))) n := (.tok k0 (by decide) (.tok k1 (by decide) (.tok k2 (by decide) (.tok k3 (by decide) (.tok k4 (by decide) (.nt (by simpa only [List.append_assoc, List.nil_append, List.append_nil, List.cons_append, nextT_append, nextT_cons, nextT_nil] using h5) (.nt (by simpa only [List.append_assoc, List.nil_append, List.append_nil, List.cons_append, nextT_append, nextT_cons, nextT_nil] using h6) .nil (fun h h' => by first | exact absurd h (by decide) | exact absurd h' (by decide))) (fun h h' => by first | exact absurd h (by decide) | exact absurd h' (by decide)))))))); simpa only [List.append_assoc, List.nil_append, List.append_nil, List.cons_append, nextT_append, nextT_cons, nextT_nil] using this) (by simp only [keepKids', List.flatMap_cons, List.flatMap_nil, List.replicate_zero, List.replicate_succ, List.getElem?_cons_zero, List.getElem?_cons_succ, Bool.false_eq_true, if_true, if_false, List.append_nil, List.nil_append, List.cons_append, List.append_assoc, kidsOf_nd] <;> rfl)

theorem y_81 {n : Nat} {u0 : Tok} {u1 : Tok} {u2 : Tok} {u3 : Tok} {c4 : Tree} {w4 : List Tok} {t5 : List Tree} {w5 : List Tok} (k0 : u0.type = T.«RESOURCE») (k1 : u1.type = T.«STRING») (k2 : u2.type = T.«QUOTED_INTERPOLATION») (k3 : u3.type = T.«EQUAL») (h4 : Y N.«object» c4 w4 (nextT w5 n)) (h5 : Y N.«__child_resource_plus_3» (nd "__child_resource_plus_3" t5) w5 n) (hn : n ≠ T._CPP_COMMENT_NL) {l : Lines} (hl : LinesOf l (u0 :: (u1 :: (u2 :: (u3 :: (w4 ++ w5)))))) :
    Y N.«child_resource» (ndl "child_resource" (tk T.«STRING» u1.text :: (tk T.«QUOTED_INTERPOLATION» u2.text :: (Tree.none :: (c4 :: t5)))) l) (u0 :: (u1 :: (u2 :: (u3 :: (w4 ++ w5))))) n :=
  Y.nodeL ⟨N.«child_resource», [T.«RESOURCE», T.«STRING», T.«QUOTED_INTERPOLATION», T.«EQUAL», N.«object», N.«__child_resource_plus_3»], "child_resource", false, [(1, false, 0), (2, false, 0), (4, false, 1), (5, true, 0)], 0⟩ (by decide +kernel) rfl (by decide) (by unfold badNode badReduce; rw [beq_false hn]; rfl) hl (cs := [tk T.«RESOURCE» u0.text, tk T.«STRING» u1.text, tk T.«QUOTED_INTERPOLATION» u2.text, tk T.«EQUAL» u3.text, c4, nd "__child_resource_plus_3" t5]) (by have : YL [T.«RESOURCE», T.«STRING», T.«QUOTED_INTERPOLATION», T.«EQUAL», N.«object», N.«__child_resource_plus_3»] [tk T.«RESOURCE» u0.text, tk T.«STRING» u1.text, tk T.«QUOTED_INTERPOLATION» u2.text, tk T.«EQUAL» u3.text, c4, nd "__child_resource_plus_3" t5] (u0 :: (u1 :: (u2 :: (u3 :: (w4 ++ (w5 ++ ([]))))))) n := (.tok k0 (by decide) (.tok k1 (by decide) (.tok k2 (by decide) (.tok k3 (by decide) (.nt (by simpa only [List.append_assoc, List.nil_append, List.append_nil, List.cons_append, nextT_append, nextT_cons, nextT_nil] using h4) (.nt (by simpa only [List.append_assoc, List.nil_append, List.append_nil, List.cons_append, nextT_append, nextT_cons, nextT_nil] using h5) .nil (fun h h' => by first | exact absurd h (by decide) | exact absurd h' (by decide))) (fun h h' => by first | exact absurd h (by decide) | exact absurd h' (by decide))))))); simpa only [List.append_assoc, List.nil_append, List.append_nil, List.cons_append, nextT_append, nextT_cons, nextT_nil] using this) (by simp only [keepKids', List.flatMap_cons, List.flatMap_nil, List.replicate_zero, List.replicate_succ, List.getElem?_cons_zero, List.getElem?_cons_succ, Bool.false_eq_true, if_true, if_false, List.append_nil, List.nil_append, List.cons_append, List.append_assoc, kidsOf_nd] <;> rfl)

theorem y_84 {n : Nat} {c0 : Tree} {w0 : List Tok} {t1 : List Tree} {w1 : List Tok} {t : Tree} (h0 : Y N.«value_brackets» c0 w0 (nextT w1 n)) (h1 : Y N.«__type_value_star_4» (nd "__type_value_star_4" (t :: t1)) w1 n) :
    Y N.«type_value» (nd "type_value" (c0 :: t :: t1)) (w0 ++ w1) n :=
  Y.long ⟨N.«type_value», [N.«value_brackets», N.«__type_value_star_4»], "type_value", true, [(0, false, 0), (1, true, 0)], 0⟩ (by decide +kernel) rfl (by decide) (free_plain (by decide) (by decide)) (cs := [c0, nd "__type_value_star_4" (t :: t1)]) (by have : YL [N.«value_brackets», N.«__type_value_star_4»] [c0, nd "__type_value_star_4" (t :: t1)] (w0 ++ (w1 ++ ([]))) n := (.nt (by simpa only [List.append_assoc, List.nil_append, List.append_nil, List.cons_append, nextT_append, nextT_cons, nextT_nil] using h0) (.nt (by simpa only [List.append_assoc, List.nil_append, List.append_nil, List.cons_append, nextT_append, nextT_cons, nextT_nil] using h1) .nil (fun h h' => by first | exact absurd h (by decide) | exact absurd h' (by decide))) (fun h h' => by first | exact absurd h (by decide) | exact absurd h' (by decide))); simpa only [List.append_assoc, List.nil_append, List.append_nil, List.cons_append, nextT_append, nextT_cons, nextT_nil] using this) (by simp only [keepKids', List.flatMap_cons, List.flatMap_nil, List.replicate_zero, List.replicate_succ, List.getElem?_cons_zero, List.getElem?_cons_succ, Bool.false_eq_true, if_true, if_false, List.append_nil, List.nil_append, List.cons_append, List.append_assoc, kidsOf_nd] <;> rfl)

theorem y_87 {n : Nat} {c0 : Tree} {w0 : List Tok} (h0 : Y N.«base_type» c0 w0 n) :
    Y N.«data_type» (nd "data_type" [c0]) w0 n :=
  Y.node ⟨N.«data_type», [N.«base_type»], "data_type", false, [(0, false, 0)], 0⟩ (by decide +kernel) rfl (by decide) (free_plain (by decide) (by decide)) (cs := [c0]) (by have : YL [N.«base_type»] [c0] (w0 ++ ([])) n := (.nt (by simpa only [List.append_assoc, List.nil_append, List.append_nil, List.cons_append, nextT_append, nextT_cons, nextT_nil] using h0) .nil (fun h h' => by first | exact absurd h (by decide) | exact absurd h' (by decide))); simpa only [List.append_assoc, List.nil_append, List.append_nil, List.cons_append, nextT_append, nextT_cons, nextT_nil] using this) (by simp only [keepKids', List.flatMap_cons, List.flatMap_nil, List.replicate_zero, List.replicate_succ, List.getElem?_cons_zero, List.getElem?_cons_succ, Bool.false_eq_true, if_true, if_false, List.append_nil, List.nil_append, List.cons_append, List.append_assoc, kidsOf_nd] <;> rfl)

theorem y_90 {n : Nat} {u0 : Tok} {c1 : Tree} {w1 : List Tok} {t2 : List Tree} {w2 : List Tok} {u3 : Tok} (k0 : u0.type = T.«LPAR») (h1 : Y N.«data_type» c1 w1 (nextT w2 u3.type)) (h2 : Y N.«__union_type_plus_6» (nd "__union_type_plus_6" t2) w2 u3.type) (k3 : u3.type = T.«RPAR») :
    Y N.«union_type» (nd "union_type" (c1 :: t2)) (u0 :: (w1 ++ (w2 ++ [u3]))) n :=
  Y.node ⟨N.«union_type», [T.«LPAR», N.«data_type», N.«__union_type_plus_6», T.«RPAR»], "union_type", false, [(1, false, 0), (2, true, 0)], 0⟩ (by decide +kernel) rfl (by decide) (free_plain (by decide) (by decide)) (cs := [tk T.«LPAR» u0.text, c1, nd "__union_type_plus_6" t2, tk T.«RPAR» u3.text]) (by have : YL [T.«LPAR», N.«data_type», N.«__union_type_plus_6», T.«RPAR»] [tk T.«LPAR» u0.text, c1, nd "__union_type_plus_6" t2, tk T.«RPAR» u3.text] (u0 :: (w1 ++ (w2 ++ (u3 :: ([]))))) n := (.tok k0 (by decide) (.nt (by simpa only [List.append_assoc, List.nil_append, List.append_nil, List.cons_append, nextT_append, nextT_cons, nextT_nil] using h1) (.nt (by simpa only [List.append_assoc, List.nil_append, List.append_nil, List.cons_append, nextT_append, nextT_cons, nextT_nil] using h2) (.tok k3 (by decide) .nil) (fun h h' => by first | exact absurd h (by decide) | exact absurd h' (by decide))) (fun h h' => by first | exact absurd h (by decide) | exact absurd h' (by decide)))); simpa only [List.append_assoc, List.nil_append, List.append_nil, List.cons_append, nextT_append, nextT_cons, nextT_nil] using this) (by simp only [keepKids', List.flatMap_cons, List.flatMap_nil, List.replicate_zero, List.replicate_succ, List.getElem?_cons_zero, List.getElem?_cons_succ, Bool.false_eq_true, if_true, if_false, List.append_nil, List.nil_append, List.cons_append, List.append_assoc, kidsOf_nd] <;> rfl)

theorem y_93 {n : Nat} {u0 : Tok} (k0 : u0.type = T.«QUOTED_INTERPOLATION») :
    Y N.«module_path» (nd "module_path" [tk T.«QUOTED_INTERPOLATION» u0.text]) [u0] n :=
  Y.node ⟨N.«module_path», [T.«QUOTED_INTERPOLATION»], "module_path", false, [(0, false, 0)], 0⟩ (by decide +kernel) rfl (by decide) (free_plain (by decide) (by decide)) (cs := [tk T.«QUOTED_INTERPOLATION» u0.text]) (by have : YL [T.«QUOTED_INTERPOLATION»] [tk T.«QUOTED_INTERPOLATION» u0.text] (u0 :: ([])) n := (.tok k0 (by decide) .nil); simpa only [List.append_assoc, List.nil_append, List.append_nil, List.cons_append, nextT_append, nextT_cons, nextT_nil] using this) (by simp only [keepKids', List.flatMap_cons, List.flatMap_nil, List.replicate_zero, List.replicate_succ, List.getElem?_cons_zero, List.getElem?_cons_succ, Bool.false_eq_true, if_true, if_false, List.append_nil, List.nil_append, List.cons_append, List.append_assoc, kidsOf_nd] <;> rfl)

theorem y_96 {n : Nat} {u0 : Tok} {u1 : Tok} {u2 : Tok} (k0 : u0.type = T.«__ANON_1») (k1 : u1.type = T.«AS») (k2 : u2.type = T.«STRING») :
    Y N.«import_alias» (nd "import_alias" (tk T.«__ANON_1» u0.text :: [tk T.«STRING» u2.text])) (u0 :: (u1 :: [u2])) n :=
  Y.node ⟨N.«import_alias», [T.«__ANON_1», T.«AS», T.«STRING»], "import_alias", false, [(0, false, 0), (2, false, 0)], 0⟩ (by decide +kernel) rfl (by decide) (free_plain (by decide) (by decide)) (cs := [tk T.«__ANON_1» u0.text, tk T.«AS» u1.text, tk T.«STRING» u2.text]) (by have : YL [T.«__ANON_1», T.«AS», T.«STRING»] [tk T.«__ANON_1» u0.text, tk T.«AS» u1.text, tk T.«STRING» u2.text] (u0 :: (u1 :: (u2 :: ([])))) n := (.tok k0 (by decide) (.tok k1 (by decide) (.tok k2 (by decide) .nil))); simpa only [List.append_assoc, List.nil_append, List.append_nil, List.cons_append, nextT_append, nextT_cons, nextT_nil] using this) (by simp only [keepKids', List.flatMap_cons, List.flatMap_nil, List.replicate_zero, List.replicate_succ, List.getElem?_cons_zero, List.getElem?_cons_succ, Bool.false_eq_true, if_true, if_false, List.append_nil, List.nil_append, List.cons_append, List.append_assoc, kidsOf_nd] <;> rfl)

theorem y_99 {n : Nat} {u0 : Tok} {u1 : Tok} {u2 : Tok} {c3 : Tree} {w3 : List Tok} {u4 : Tok} {c5 : Tree} {w5 : List Tok} {c6 : Tree} {w6 : List Tok} {u7 : Tok} (k0 : u0.type = T.«LSQB») (k1 : u1.type = T.«_CPP_COMMENT_NL») (k2 : u2.type = T.«FOR») (h3 : Y N.«loop_array» c3 w3 u4.type) (k4 : u4.type = T.«COLON») (h5 : Y N.«value_brackets» c5 w5 (nextT w6 u7.type)) (hg : (nextT w6 u7.type) ≠ T.MINUS ∧ (nextT w6 u7.type) ≠ T.LSQB) (h6 : Y N.«value_brackets» c6 w6 u7.type) (k7 : u7.type = T.«RSQB») :
    Y N.«loop» (nd "loop" (c3 :: (c5 :: [c6]))) (u0 :: (u1 :: (u2 :: (w3 ++ (u4 :: (w5 ++ (w6 ++ [u7]))))))) n :=
  Y.node ⟨N.«loop», [T.«LSQB», T.«_CPP_COMMENT_NL», T.«FOR», N.«loop_array», T.«COLON», N.«value_brackets», N.«value_brackets», T.«RSQB»], "loop", false, [(3, false, 0), (5, false, 0), (6, false, 0)], 0⟩ (by decide +kernel) rfl (by decide) (free_plain (by decide) (by decide)) (cs := [tk T.«LSQB» u0.text, tk T.«_CPP_COMMENT_NL» u1.text, tk T.«FOR» u2.text, c3, tk T.«COLON» u4.text, c5, c6, tk T.«RSQB» u7.text]) (by have : YL [T.«LSQB», T.«_CPP_COMMENT_NL», T.«FOR», N.«loop_array», T.«COLON», N.«value_brackets», N.«value_brackets», T.«RSQB»] [tk T.«LSQB» u0.text, tk T.«_CPP_COMMENT_NL» u1.text, tk T.«FOR» u2.text, c3, tk T.«COLON» u4.text, c5, c6, tk T.«RSQB» u7.text] (u0 :: (u1 :: (u2 :: (w3 ++ (u4 :: (w5 ++ (w6 ++ (u7 :: ([]))))))))) n := (.tok k0 (by decide) (.tok k1 (by decide) (.tok k2 (by decide) (.nt (by simpa only [List.append_assoc, List.nil_append, List.append_nil, List.cons_append, nextT_append, nextT_cons, nextT_nil] using h3) (.tok k4 (by decide) (.nt (by simpa only [List.append_assoc, List.nil_append, List.append_nil, List.cons_append, nextT_append, nextT_cons, nextT_nil] using h5) (.nt (by simpa only [List.append_assoc, List.nil_append, List.append_nil, List.cons_append, nextT_append, nextT_cons, nextT_nil] using h6) (.tok k7 (by decide) .nil) (fun h h' => by first | exact absurd h (by decide) | exact absurd h' (by decide))) (fun _ _ => by simpa only [List.append_assoc, List.nil_append, List.append_nil, List.cons_append, nextT_append, nextT_cons, nextT_nil] using hg))) (fun h h' => by first | exact absurd h (by decide) | exact absurd h' (by decide)))))); simpa only [List.append_assoc, List.nil_append, List.append_nil, List.cons_append, nextT_append, nextT_cons, nextT_nil] using this) (by simp only [keepKids', List.flatMap_cons, List.flatMap_nil, List.replicate_zero, List.replicate_succ, List.getElem?_cons_zero, List.getElem?_cons_succ, Bool.false_eq_true, if_true, if_false, List.append_nil, List.nil_append, List.cons_append, List.append_assoc, kidsOf_nd] <;> rfl)

theorem y_102 {n : Nat} {u0 : Tok} {u1 : Tok} {u2 : Tok} {c3 : Tree} {w3 : List Tok} {u4 : Tok} {c5 : Tree} {w5 : List Tok} {c6 : Tree} {w6 : List Tok} {u7 : Tok} {u8 : Tok} (k0 : u0.type = T.«LSQB») (k1 : u1.type = T.«_CPP_COMMENT_NL») (k2 : u2.type = T.«FOR») (h3 : Y N.«loop_array_index» c3 w3 u4.type) (k4 : u4.type = T.«COLON») (h5 : Y N.«value_brackets» c5 w5 (nextT w6 u7.type)) (hg : (nextT w6 u7.type) ≠ T.MINUS ∧ (nextT w6 u7.type) ≠ T.LSQB) (h6 : Y N.«value_brackets» c6 w6 u7.type) (k7 : u7.type = T.«_CPP_COMMENT_NL») (k8 : u8.type = T.«RSQB») :
    Y N.«loop» (nd "loop" (c3 :: (c5 :: [c6]))) (u0 :: (u1 :: (u2 :: (w3 ++ (u4 :: (w5 ++ (w6 ++ (u7 :: [u8])))))))) n :=
  Y.node ⟨N.«loop», [T.«LSQB», T.«_CPP_COMMENT_NL», T.«FOR», N.«loop_array_index», T.«COLON», N.«value_brackets», N.«value_brackets», T.«_CPP_COMMENT_NL», T.«RSQB»], "loop", false, [(3, false, 0), (5, false, 0), (6, false, 0)], 0⟩ (by decide +kernel) rfl (by decide) (free_plain (by decide) (by decide)) (cs := [tk T.«LSQB» u0.text, tk T.«_CPP_COMMENT_NL» u1.text, tk T.«FOR» u2.text, c3, tk T.«COLON» u4.text, c5, c6, tk T.«_CPP_COMMENT_NL» u7.text, tk T.«RSQB» u8.text]) (by have : YL [T.«LSQB», T.«_CPP_COMMENT_NL», T.«FOR», N.«loop_array_index», T.«COLON», N.«value_brackets», N.«value_brackets», T.«_CPP_COMMENT_NL», T.«RSQB»] [tk T.«LSQB» u0.text, tk T.«_CPP_COMMENT_NL» u1.text, tk T.«FOR» u2.text, c3, tk T.«COLON» u4.text, c5, c6, tk T.«_CPP_COMMENT_NL» u7.text, tk T.«RSQB» u8.text] (u0 :: (u1 :: (u2 :: (w3 ++ (u4 :: (w5 ++ (w6 ++ (u7 :: (u8 :: ([])))))))))) n := (.tok k0 (by decide) (.tok k1 (by decide) (.tok k2 (by decide) (.nt (by simpa only [List.append_assoc, List.nil_append, List.append_nil, List.cons_append, nextT_append, nextT_cons, nextT_nil] using h3) (.tok k4 (by decide) (.nt (by simpa only [List.append_assoc, List.nil_append, List.append_nil, List.cons_append, nextT_append, nextT_cons, nextT_nil] using h5) (.nt (by simpa only [List.append_assoc, List.nil_append, List.append_nil, List.cons_append, nextT_append, nextT_cons, nextT_nil] using h6) (.tok k7 (by decide) (.tok k8 (by decide) .nil)) (fun h h' => by first | exact absurd h (by decide) | exact absurd h' (by decide))) (fun _ _ => by simpa only [List.append_assoc, List.nil_append, List.append_nil, List.cons_append, nextT_append, nextT_cons, nextT_nil] using hg))) (fun h h' => by first | exact absurd h (by decide) | exact absurd h' (by decide)))))); simpa only [List.append_assoc, List.nil_append, List.append_nil, List.cons_append, nextT_append, nextT_cons, nextT_nil] using this) (by simp only [keepKids', List.flatMap_cons, List.flatMap_nil, List.replicate_zero, List.replicate_succ, List.getElem?_cons_zero, List.getElem?_cons_succ, Bool.false_eq_true, if_true, if_false, List.append_nil, List.nil_append, List.cons_append, List.append_assoc, kidsOf_nd] <;> rfl)

theorem y_105 {n : Nat} {u0 : Tok} {u1 : Tok} {u2 : Tok} {c3 : Tree} {w3 : List Tok} {u4 : Tok} {c5 : Tree} {w5 : List Tok} {u6 : Tok} (k0 : u0.type = T.«LSQB») (k1 : u1.type = T.«_CPP_COMMENT_NL») (k2 : u2.type = T.«FOR») (h3 : Y N.«loop_array_index» c3 w3 u4.type) (k4 : u4.type = T.«COLON») (h5 : Y N.«value_brackets» c5 w5 u6.type) (k6 : u6.type = T.«RSQB») :
    Y N.«loop» (nd "loop" (c3 :: (Tree.none :: [c5]))) (u0 :: (u1 :: (u2 :: (w3 ++ (u4 :: (w5 ++ [u6])))))) n :=
  Y.node ⟨N.«loop», [T.«LSQB», T.«_CPP_COMMENT_NL», T.«FOR», N.«loop_array_index», T.«COLON», N.«value_brackets», T.«RSQB»], "loop", false, [(3, false, 0), (5, false, 1)], 0⟩ (by decide +kernel) rfl (by decide) (free_plain (by decide) (by decide)) (cs := [tk T.«LSQB» u0.text, tk T.«_CPP_COMMENT_NL» u1.text, tk T.«FOR» u2.text, c3, tk T.«COLON» u4.text, c5, tk T.«RSQB» u6.text]) (by have : YL [T.«LSQB», T.«_CPP_COMMENT_NL», T.«FOR», N.«loop_array_index», T.«COLON», N.«value_brackets», T.«RSQB»] [tk T.«LSQB» u0.text, tk T.«_CPP_COMMENT_NL» u1.text, tk T.«FOR» u2.text, c3, tk T.«COLON» u4.text, c5, tk T.«RSQB» u6.text] (u0 :: (u1 :: (u2 :: (w3 ++ (u4 :: (w5 ++ (u6 :: ([])))))))) n := (.tok k0 (by decide) (.tok k1 (by decide) (.tok k2 (by decide) (.nt (by simpa only [List.append_assoc, List.nil_append, List.append_nil, List.cons_append, nextT_append, nextT_cons, nextT_nil] using h3) (.tok k4 (by decide) (.nt (by simpa only [List.append_assoc, List.nil_append, List.append_nil, List.cons_append, nextT_append, nextT_cons, nextT_nil] using h5) (.tok k6 (by decide) .nil) (fun h h' => by first | exact absurd h (by decide) | exact absurd h' (by decide)))) (fun h h' => by first | exact absurd h (by decide) | exact absurd h' (by decide)))))); simpa only [List.append_assoc, List.nil_append, List.append_nil, List.cons_append, nextT_append, nextT_cons, nextT_nil] using this) (by simp only [keepKids', List.flatMap_cons, List.flatMap_nil, List.replicate_zero, List.replicate_succ, List.getElem?_cons_zero, List.getElem?_cons_succ, Bool.false_eq_true, if_true, if_false, List.append_nil, List.nil_append, List.cons_append, List.append_assoc, kidsOf_nd] <;> rfl)

theorem y_108 {n : Nat} {u0 : Tok} {u1 : Tok} {u2 : Tok} {c3 : Tree} {w3 : List Tok} {u4 : Tok} {c5 : Tree} {w5 : List Tok} {u6 : Tok} {u7 : Tok} (k0 : u0.type = T.«LSQB») (k1 : u1.type = T.«_CPP_COMMENT_NL») (k2 : u2.type = T.«FOR») (h3 : Y N.«loop_object» c3 w3 u4.type) (k4 : u4.type = T.«COLON») (h5 : Y N.«value_brackets» c5 w5 u6.type) (k6 : u6.type = T.«_CPP_COMMENT_NL») (k7 : u7.type = T.«RSQB») :
    Y N.«loop» (nd "loop" (c3 :: (Tree.none :: [c5]))) (u0 :: (u1 :: (u2 :: (w3 ++ (u4 :: (w5 ++ (u6 :: [u7]))))))) n :=
  Y.node ⟨N.«loop», [T.«LSQB», T.«_CPP_COMMENT_NL», T.«FOR», N.«loop_object», T.«COLON», N.«value_brackets», T.«_CPP_COMMENT_NL», T.«RSQB»], "loop", false, [(3, false, 0), (5, false, 1)], 0⟩ (by decide +kernel) rfl (by decide) (free_plain (by decide) (by decide)) (cs := [tk T.«LSQB» u0.text, tk T.«_CPP_COMMENT_NL» u1.text, tk T.«FOR» u2.text, c3, tk T.«COLON» u4.text, c5, tk T.«_CPP_COMMENT_NL» u6.text, tk T.«RSQB» u7.text]) (by have : YL [T.«LSQB», T.«_CPP_COMMENT_NL», T.«FOR», N.«loop_object», T.«COLON», N.«value_brackets», T.«_CPP_COMMENT_NL», T.«RSQB»] [tk T.«LSQB» u0.text, tk T.«_CPP_COMMENT_NL» u1.text, tk T.«FOR» u2.text, c3, tk T.«COLON» u4.text, c5, tk T.«_CPP_COMMENT_NL» u6.text, tk T.«RSQB» u7.text] (u0 :: (u1 :: (u2 :: (w3 ++ (u4 :: (w5 ++ (u6 :: (u7 :: ([]))))))))) n := (.tok k0 (by decide) (.tok k1 (by decide) (.tok k2 (by decide) (.nt (by simpa only [List.append_assoc, List.nil_append, List.append_nil, List.cons_append, nextT_append, nextT_cons, nextT_nil] using h3) (.tok k4 (by decide) (.nt (by simpa only [List.append_assoc, List.nil_append, List.append_nil, List.cons_append, nextT_append, nextT_cons, nextT_nil] using h5) (.tok k6 (by decide) (.tok k7 (by decide) .nil)) (fun h h' => by first | exact absurd h (by decide) | exact absurd h' (by decide)))) (fun h h' => by first | exact absurd h (by decide) | exact absurd h' (by decide)))))); simpa only [List.append_assoc, List.nil_append, List.append_nil, List.cons_append, nextT_append, nextT_cons, nextT_nil] using this) (by simp only [keepKids', List.flatMap_cons, List.flatMap_nil, List.replicate_zero, List.replicate_succ, List.getElem?_cons_zero, List.getElem?_cons_succ, Bool.false_eq_true, if_true, if_false, List.append_nil, List.nil_append, List.cons_append, List.append_assoc, kidsOf_nd] <;> rfl)

theorem y_111 {n : Nat} {u0 : Tok} {u1 : Tok} {c2 : Tree} {w2 : List Tok} {u3 : Tok} {c4 : Tree} {w4 : List Tok} {c5 : Tree} {w5 : List Tok} {u6 : Tok} (k0 : u0.type = T.«LSQB») (k1 : u1.type = T.«FOR») (h2 : Y N.«loop_array» c2 w2 u3.type) (k3 : u3.type = T.«COLON») (h4 : Y N.«value_brackets» c4 w4 (nextT w5 u6.type)) (hg : (nextT w5 u6.type) ≠ T.MINUS ∧ (nextT w5 u6.type) ≠ T.LSQB) (h5 : Y N.«value_brackets» c5 w5 u6.type) (k6 : u6.type = T.«RSQB») :
    Y N.«loop» (nd "loop" (c2 :: (c4 :: [c5]))) (u0 :: (u1 :: (w2 ++ (u3 :: (w4 ++ (w5 ++ [u6])))))) n :=
  Y.node ⟨N.«loop», [T.«LSQB», T.«FOR», N.«loop_array», T.«COLON», N.«value_brackets», N.«value_brackets», T.«RSQB»], "loop", false, [(2, false, 0), (4, false, 0), (5, false, 0)], 0⟩ (by decide +kernel) rfl (by decide) (free_plain (by decide) (by decide)) (cs := [tk T.«LSQB» u0.text, tk T.«FOR» u1.text, c2, tk T.«COLON» u3.text, c4, c5, tk T.«RSQB» u6.text]) (by have : YL [T.«LSQB», T.«FOR», N.«loop_array», T.«COLON», N.«value_brackets», N.«value_brackets», T.«RSQB»] [tk T.«LSQB» u0.text, tk T.«FOR» u1.text, c2, tk T.«COLON» u3.text, c4, c5, tk T.«RSQB» u6.text] (u0 :: (u1 :: (w2 ++ (u3 :: (w4 ++ (w5 ++ (u6 :: ([])))))))) n := (.tok k0 (by decide) (.tok k1 (by decide) (.nt (by simpa only [List.append_assoc, List.nil_append, List.append_nil, List.cons_append, nextT_append, nextT_cons, nextT_nil] using h2) (.tok k3 (by decide) (.nt (by simpa only [List.append_assoc, List.nil_append, List.append_nil, List.cons_append, nextT_append, nextT_cons, nextT_nil] using h4) (.nt (by simpa only [List.append_assoc, List.nil_append, List.append_nil, List.cons_append, nextT_append, nextT_cons, nextT_nil] using h5) (.tok k6 (by decide) .nil) (fun h h' => by first | exact absurd h (by decide) | exact absurd h' (by decide))) (fun _ _ => by simpa only [List.append_assoc, List.nil_append, List.append_nil, List.cons_append, nextT_append, nextT_cons, nextT_nil] using hg))) (fun h h' => by first | exact absurd h (by decide) | exact absurd h' (by decide))))); simpa only [List.append_assoc, List.nil_append, List.append_nil, List.cons_append, nextT_append, nextT_cons, nextT_nil] using this) (by simp only [keepKids', List.flatMap_cons, List.flatMap_nil, List.replicate_zero, List.replicate_succ, List.getElem?_cons_zero, List.getElem?_cons_succ, Bool.false_eq_true, if_true, if_false, List.append_nil, List.nil_append, List.cons_append, List.append_assoc, kidsOf_nd] <;> rfl)

theorem y_114 {n : Nat} {u0 : Tok} {u1 : Tok} {c2 : Tree} {w2 : List Tok} {u3 : Tok} {c4 : Tree} {w4 : List Tok} {c5 : Tree} {w5 : List Tok} {u6 : Tok} {u7 : Tok} (k0 : u0.type = T.«LSQB») (k1 : u1.type = T.«FOR») (h2 : Y N.«loop_array_index» c2 w2 u3.type) (k3 : u3.type = T.«COLON») (h4 : Y N.«value_brackets» c4 w4 (nextT w5 u6.type)) (hg : (nextT w5 u6.type) ≠ T.MINUS ∧ (nextT w5 u6.type) ≠ T.LSQB) (h5 : Y N.«value_brackets» c5 w5 u6.type) (k6 : u6.type = T.«_CPP_COMMENT_NL») (k7 : u7.type = T.«RSQB») :
    Y N.«loop» (nd "loop" (c2 :: (c4 :: [c5]))) (u0 :: (u1 :: (w2 ++ (u3 :: (w4 ++ (w5 ++ (u6 :: [u7]))))))) n :=
  Y.node ⟨N.«loop», [T.«LSQB», T.«FOR», N.«loop_array_index», T.«COLON», N.«value_brackets», N.«value_brackets», T.«_CPP_COMMENT_NL», T.«RSQB»], "loop", false, [(2, false, 0), (4, false, 0), (5, false, 0)], 0⟩ (by decide +kernel) rfl (by decide) (free_plain (by decide) (by decide)) (cs := [tk T.«LSQB» u0.text, tk T.«FOR» u1.text, c2, tk T.«COLON» u3.text, c4, c5, tk T.«_CPP_COMMENT_NL» u6.text, tk T.«RSQB» u7.text]) (by have : YL [T.«LSQB», T.«FOR», N.«loop_array_index», T.«COLON», N.«value_brackets», N.«value_brackets», T.«_CPP_COMMENT_NL», T.«RSQB»] [tk T.«LSQB» u0.text, tk T.«FOR» u1.text, c2, tk T.«COLON» u3.text, c4, c5, tk T.«_CPP_COMMENT_NL» u6.text, tk T.«RSQB» u7.text] (u0 :: (u1 :: (w2 ++ (u3 :: (w4 ++ (w5 ++ (u6 :: (u7 :: ([]))))))))) n := (.tok k0 (by decide) (.tok k1 (by decide) (.nt (by simpa only [List.append_assoc, List.nil_append, List.append_nil, List.cons_append, nextT_append, nextT_cons, nextT_nil] using h2) (.tok k3 (by decide) (.nt (by simpa only [List.append_assoc, List.nil_append, List.append_nil, List.cons_append, nextT_append, nextT_cons, nextT_nil] using h4) (.nt (by simpa only [List.append_assoc, List.nil_append, List.append_nil, List.cons_append, nextT_append, nextT_cons, nextT_nil] using h5) (.tok k6 (by decide) (.tok k7 (by decide) .nil)) (fun h h' => by first | exact absurd h (by decide) | exact absurd h' (by decide))) (fun _ _ => by simpa only [List.append_assoc, List.nil_append, List.append_nil, List.cons_append, nextT_append, nextT_cons, nextT_nil] using hg))) (fun h h' => by first | exact absurd h (by decide) | exact absurd h' (by decide))))); simpa only [List.append_assoc, List.nil_append, List.append_nil, List.cons_append, nextT_append, nextT_cons, nextT_nil] using this) (by simp only [keepKids', List.flatMap_cons, List.flatMap_nil, List.replicate_zero, List.replicate_succ, List.getElem?_cons_zero, List.getElem?_cons_succ, Bool.false_eq_true, if_true, if_false, List.append_nil, List.nil_append, List.cons_append, List.append_assoc, kidsOf_nd] <;> rfl)

theorem y_117 {n : Nat} {u0 : Tok} {u1 : Tok} {c2 : Tree} {w2 : List Tok} {u3 : Tok} {c4 : Tree} {w4 : List Tok} {u5 : Tok} (k0 : u0.type = T.«LSQB») (k1 : u1.type = T.«FOR») (h2 : Y N.«loop_array_index» c2 w2 u3.type) (k3 : u3.type = T.«COLON») (h4 : Y N.«value_brackets» c4 w4 u5.type) (k5 : u5.type = T.«RSQB») :
    Y N.«loop» (nd "loop" (c2 :: (Tree.none :: [c4]))) (u0 :: (u1 :: (w2 ++ (u3 :: (w4 ++ [u5]))))) n :=
  Y.node ⟨N.«loop», [T.«LSQB», T.«FOR», N.«loop_array_index», T.«COLON», N.«value_brackets», T.«RSQB»], "loop", false, [(2, false, 0), (4, false, 1)], 0⟩ (by decide +kernel) rfl (by decide) (free_plain (by decide) (by decide)) (cs := [tk T.«LSQB» u0.text, tk T.«FOR» u1.text, c2, tk T.«COLON» u3.text, c4, tk T.«RSQB» u5.text]) (by have : YL [T.«LSQB», T.«FOR», N.«loop_array_index», T.«COLON», N.«value_brackets», T.«RSQB»] [tk T.«LSQB» u0.text, tk T.«FOR» u1.text, c2, tk T.«COLON» u3.text, c4, tk T.«RSQB» u5.text] (u0 :: (u1 :: (w2 ++ (u3 :: (w4 ++ (u5 :: ([]))))))) n := (.tok k0 (by decide) (.tok k1 (by decide) (.nt (by simpa only [List.append_assoc, List.nil_append, List.append_nil, List.cons_append, nextT_append, nextT_cons, nextT_nil] using h2) (.tok k3 (by decide) (.nt (by simpa only [List.append_assoc, List.nil_append, List.append_nil, List.cons_append, nextT_append, nextT_cons, nextT_nil] using h4) (.tok k5 (by decide) .nil) (fun h h' => by first | exact absurd h (by decide) | exact absurd h' (by decide)))) (fun h h' => by first | exact absurd h (by decide) | exact absurd h' (by decide))))); simpa only [List.append_assoc, List.nil_append, List.append_nil, List.cons_append, nextT_append, nextT_cons, nextT_nil] using this) (by simp only [keepKids', List.flatMap_cons, List.flatMap_nil, List.replicate_zero, List.replicate_succ, List.getElem?_cons_zero, List.getElem?_cons_succ, Bool.false_eq_true, if_true, if_false, List.append_nil, List.nil_append, List.cons_append, List.append_assoc, kidsOf_nd] <;> rfl)

theorem y_120 {n : Nat} {u0 : Tok} {u1 : Tok} {c2 : Tree} {w2 : List Tok} {u3 : Tok} {c4 : Tree} {w4 : List Tok} {u5 : Tok} {u6 : Tok} (k0 : u0.type = T.«LSQB») (k1 : u1.type = T.«FOR») (h2 : Y N.«loop_object» c2 w2 u3.type) (k3 : u3.type = T.«COLON») (h4 : Y N.«value_brackets» c4 w4 u5.type) (k5 : u5.type = T.«_CPP_COMMENT_NL») (k6 : u6.type = T.«RSQB») :
    Y N.«loop» (nd "loop" (c2 :: (Tree.none :: [c4]))) (u0 :: (u1 :: (w2 ++ (u3 :: (w4 ++ (u5 :: [u6])))))) n :=
  Y.node ⟨N.«loop», [T.«LSQB», T.«FOR», N.«loop_object», T.«COLON», N.«value_brackets», T.«_CPP_COMMENT_NL», T.«RSQB»], "loop", false, [(2, false, 0), (4, false, 1)], 0⟩ (by decide +kernel) rfl (by decide) (free_plain (by decide) (by decide)) (cs := [tk T.«LSQB» u0.text, tk T.«FOR» u1.text, c2, tk T.«COLON» u3.text, c4, tk T.«_CPP_COMMENT_NL» u5.text, tk T.«RSQB» u6.text]) (by have : YL [T.«LSQB», T.«FOR», N.«loop_object», T.«COLON», N.«value_brackets», T.«_CPP_COMMENT_NL», T.«RSQB»] [tk T.«LSQB» u0.text, tk T.«FOR» u1.text, c2, tk T.«COLON» u3.text, c4, tk T.«_CPP_COMMENT_NL» u5.text, tk T.«RSQB» u6.text] (u0 :: (u1 :: (w2 ++ (u3 :: (w4 ++ (u5 :: (u6 :: ([])))))))) n := (.tok k0 (by decide) (.tok k1 (by decide) (.nt (by simpa only [List.append_assoc, List.nil_append, List.append_nil, List.cons_append, nextT_append, nextT_cons, nextT_nil] using h2) (.tok k3 (by decide) (.nt (by simpa only [List.append_assoc, List.nil_append, List.append_nil, List.cons_append, nextT_append, nextT_cons, nextT_nil] using h4) (.tok k5 (by decide) (.tok k6 (by decide) .nil)) (fun h h' => by first | exact absurd h (by decide) | exact absurd h' (by decide)))) (fun h h' => by first | exact absurd h (by decide) | exact absurd h' (by decide))))); simpa only [List.append_assoc, List.nil_append, List.append_nil, List.cons_append, nextT_append, nextT_cons, nextT_nil] using this) (by simp only [keepKids', List.flatMap_cons, List.flatMap_nil, List.replicate_zero, List.replicate_succ, List.getElem?_cons_zero, List.getElem?_cons_succ, Bool.false_eq_true, if_true, if_false, List.append_nil, List.nil_append, List.cons_append, List.append_assoc, kidsOf_nd] <;> rfl)

theorem y_123 {n : Nat} {u0 : Tok} {u1 : Tok} {u2 : Tok} {u3 : Tok} {u4 : Tok} {u5 : Tok} {c6 : Tree} {w6 : List Tok} (k0 : u0.type = T.«LPAR») (k1 : u1.type = T.«STRING») (k2 : u2.type = T.«COMMA») (k3 : u3.type = T.«STRING») (k4 : u4.type = T.«RPAR») (k5 : u5.type = T.«IN») (h6 : Y N.«value_brackets» c6 w6 n) (hn : NoInfix n) :
    Y N.«loop_array_index» (nd "loop_array_index" (tk T.«STRING» u1.text :: (tk T.«STRING» u3.text :: [c6]))) (u0 :: (u1 :: (u2 :: (u3 :: (u4 :: (u5 :: w6)))))) n :=
  Y.node ⟨N.«loop_array_index», [T.«LPAR», T.«STRING», T.«COMMA», T.«STRING», T.«RPAR», T.«IN», N.«value_brackets»], "loop_array_index", false, [(1, false, 0), (3, false, 0), (6, false, 0)], 0⟩ (by decide +kernel) rfl (by decide) (free_infix (by decide) hn) (cs := [tk T.«LPAR» u0.text, tk T.«STRING» u1.text, tk T.«COMMA» u2.text, tk T.«STRING» u3.text, tk T.«RPAR» u4.text, tk T.«IN» u5.text, c6]) (by have : YL [T.«LPAR», T.«STRING», T.«COMMA», T.«STRING», T.«RPAR», T.«IN», N.«value_brackets»] [tk T.«LPAR» u0.text, tk T.«STRING» u1.text, tk T.«COMMA» u2.text, tk T.«STRING» u3.text, tk T.«RPAR» u4.text, tk T.«IN» u5.text, c6] (u0 :: (u1 :: (u2 :: (u3 :: (u4 :: (u5 :: (w6 ++ ([])))))))) n := (.tok k0 (by decide) (.tok k1 (by decide) (.tok k2 (by decide) (.tok k3 (by decide) (.tok k4 (by decide) (.tok k5 (by decide) (.nt (by simpa only [List.append_assoc, List.nil_append, List.append_nil, List.cons_append, nextT_append, nextT_cons, nextT_nil] using h6) .nil (fun h h' => by first | exact absurd h (by decide) | exact absurd h' (by decide))))))))); simpa only [List.append_assoc, List.nil_append, List.append_nil, List.cons_append, nextT_append, nextT_cons, nextT_nil] using this) (by simp only [keepKids', List.flatMap_cons, List.flatMap_nil, List.replicate_zero, List.replicate_succ, List.getElem?_cons_zero, List.getElem?_cons_succ, Bool.false_eq_true, if_true, if_false, List.append_nil, List.nil_append, List.cons_append, List.append_assoc, kidsOf_nd] <;> rfl)

theorem y_126 {n : Nat} {u0 : Tok} {u1 : Tok} {c2 : Tree} {w2 : List Tok} {u3 : Tok} {c4 : Tree} {w4 : List Tok} (k0 : u0.type = T.«IF») (k1 : u1.type = T.«LPAR») (h2 : Y N.«value_brackets» c2 w2 u3.type) (k3 : u3.type = T.«RPAR») (h4 : Y N.«value_brackets» c4 w4 n) (hn : NoInfix n) :
    Y N.«deploy_condition» (nd "deploy_condition" (c2 :: [c4])) (u0 :: (u1 :: (w2 ++ (u3 :: w4)))) n :=
  Y.node ⟨N.«deploy_condition», [T.«IF», T.«LPAR», N.«value_brackets», T.«RPAR», N.«value_brackets»], "deploy_condition", false, [(2, false, 0), (4, false, 0)], 0⟩ (by decide +kernel) rfl (by decide) (free_infix (by decide) hn) (cs := [tk T.«IF» u0.text, tk T.«LPAR» u1.text, c2, tk T.«RPAR» u3.text, c4]) (by have : YL [T.«IF», T.«LPAR», N.«value_brackets», T.«RPAR», N.«value_brackets»] [tk T.«IF» u0.text, tk T.«LPAR» u1.text, c2, tk T.«RPAR» u3.text, c4] (u0 :: (u1 :: (w2 ++ (u3 :: (w4 ++ ([])))))) n := (.tok k0 (by decide) (.tok k1 (by decide) (.nt (by simpa only [List.append_assoc, List.nil_append, List.append_nil, List.cons_append, nextT_append, nextT_cons, nextT_nil] using h2) (.tok k3 (by decide) (.nt (by simpa only [List.append_assoc, List.nil_append, List.append_nil, List.cons_append, nextT_append, nextT_cons, nextT_nil] using h4) .nil (fun h h' => by first | exact absurd h (by decide) | exact absurd h' (by decide)))) (fun h h' => by first | exact absurd h (by decide) | exact absurd h' (by decide))))); simpa only [List.append_assoc, List.nil_append, List.append_nil, List.cons_append, nextT_append, nextT_cons, nextT_nil] using this) (by simp only [keepKids', List.flatMap_cons, List.flatMap_nil, List.replicate_zero, List.replicate_succ, List.getElem?_cons_zero, List.getElem?_cons_succ, Bool.false_eq_true, if_true, if_false, List.append_nil, List.nil_append, List.cons_append, List.append_assoc, kidsOf_nd] <;> rfl)

theorem y_129 {n : Nat} {u0 : Tok} (k0 : u0.type = T.«QUOTED_INTERPOLATION») :
    Y N.«quoted_string» (tk T.«QUOTED_INTERPOLATION» u0.text) [u0] n :=
  Y.ex ⟨N.«quoted_string», [T.«QUOTED_INTERPOLATION»], "quoted_string", true, [(0, false, 0)], 0⟩ (by decide +kernel) rfl (by decide) (free_plain (by decide) (by decide)) (cs := [tk T.«QUOTED_INTERPOLATION» u0.text]) (by have : YL [T.«QUOTED_INTERPOLATION»] [tk T.«QUOTED_INTERPOLATION» u0.text] (u0 :: ([])) n := (.tok k0 (by decide) .nil); simpa only [List.append_assoc, List.nil_append, List.append_nil, List.cons_append, nextT_append, nextT_cons, nextT_nil] using this) (by simp only [keepKids', List.flatMap_cons, List.flatMap_nil, List.replicate_zero, List.replicate_succ, List.getElem?_cons_zero, List.getElem?_cons_succ, Bool.false_eq_true, if_true, if_false, List.append_nil, List.nil_append, List.cons_append, List.append_assoc, kidsOf_nd] <;> rfl) rfl

theorem y_132 {n : Nat} {u0 : Tok} {t1 : List Tree} {w1 : List Tok} {u2 : Tok} (k0 : u0.type = T.«LSQB») (h1 : Y N.«__array_star_8» (nd "__array_star_8" t1) w1 u2.type) (k2 : u2.type = T.«RSQB») :
    Y N.«array» (nd "array" t1) (u0 :: (w1 ++ [u2])) n :=
  Y.node ⟨N.«array», [T.«LSQB», N.«__array_star_8», T.«RSQB»], "array", false, [(1, true, 0)], 0⟩ (by decide +kernel) rfl (by decide) (free_plain (by decide) (by decide)) (cs := [tk T.«LSQB» u0.text, nd "__array_star_8" t1, tk T.«RSQB» u2.text]) (by have : YL [T.«LSQB», N.«__array_star_8», T.«RSQB»] [tk T.«LSQB» u0.text, nd "__array_star_8" t1, tk T.«RSQB» u2.text] (u0 :: (w1 ++ (u2 :: ([])))) n := (.tok k0 (by decide) (.nt (by simpa only [List.append_assoc, List.nil_append, List.append_nil, List.cons_append, nextT_append, nextT_cons, nextT_nil] using h1) (.tok k2 (by decide) .nil) (fun h h' => by first | exact absurd h (by decide) | exact absurd h' (by decide)))); simpa only [List.append_assoc, List.nil_append, List.append_nil, List.cons_append, nextT_append, nextT_cons, nextT_nil] using this) (by simp only [keepKids', List.flatMap_cons, List.flatMap_nil, List.replicate_zero, List.replicate_succ, List.getElem?_cons_zero, List.getElem?_cons_succ, Bool.false_eq_true, if_true, if_false, List.append_nil, List.nil_append, List.cons_append, List.append_assoc, kidsOf_nd] <;> rfl)

theorem y_135 {n : Nat} {u0 : Tok} {t1 : List Tree} {w1 : List Tok} {u2 : Tok} (k0 : u0.type = T.«LBRACE») (h1 : Y N.«__child_resource_plus_3» (nd "__child_resource_plus_3" t1) w1 u2.type) (k2 : u2.type = T.«RBRACE») :
    Y N.«object» (nd "object" t1) (u0 :: (w1 ++ [u2])) n :=
  Y.node ⟨N.«object», [T.«LBRACE», N.«__child_resource_plus_3», T.«RBRACE»], "object", false, [(1, true, 0)], 0⟩ (by decide +kernel) rfl (by decide) (free_plain (by decide) (by decide)) (cs := [tk T.«LBRACE» u0.text, nd "__child_resource_plus_3" t1, tk T.«RBRACE» u2.text]) (by have : YL [T.«LBRACE», N.«__child_resource_plus_3», T.«RBRACE»] [tk T.«LBRACE» u0.text, nd "__child_resource_plus_3" t1, tk T.«RBRACE» u2.text] (u0 :: (w1 ++ (u2 :: ([])))) n := (.tok k0 (by decide) (.nt (by simpa only [List.append_assoc, List.nil_append, List.append_nil, List.cons_append, nextT_append, nextT_cons, nextT_nil] using h1) (.tok k2 (by decide) .nil) (fun h h' => by first | exact absurd h (by decide) | exact absurd h' (by decide)))); simpa only [List.append_assoc, List.nil_append, List.append_nil, List.cons_append, nextT_append, nextT_cons, nextT_nil] using this) (by simp only [keepKids', List.flatMap_cons, List.flatMap_nil, List.replicate_zero, List.replicate_succ, List.getElem?_cons_zero, List.getElem?_cons_succ, Bool.false_eq_true, if_true, if_false, List.append_nil, List.nil_append, List.cons_append, List.append_assoc, kidsOf_nd] <;> rfl)

theorem y_138 {n : Nat} {c0 : Tree} {w0 : List Tok} {u1 : Tok} {c2 : Tree} {w2 : List Tok} {u3 : Tok} (h0 : Y N.«key» c0 w0 u1.type) (k1 : u1.type = T.«COLON») (h2 : Y N.«value_brackets» c2 w2 u3.type) (k3 : u3.type = T.«QMARK») (hn : n ≠ T.STRING) (hn2 : n ≠ T.QUOTED_INTERPOLATION) :
    Y N.«pair» (nd "pair" (c0 :: [c2])) (w0 ++ (u1 :: (w2 ++ [u3]))) n :=
  Y.node ⟨N.«pair», [N.«key», T.«COLON», N.«value_brackets», T.«QMARK»], "pair", false, [(0, false, 0), (2, false, 0)], 0⟩ (by decide +kernel) rfl (by decide) (by unfold badNode badReduce; rw [beq_false hn, beq_false hn2]; rfl) (cs := [c0, tk T.«COLON» u1.text, c2, tk T.«QMARK» u3.text]) (by have : YL [N.«key», T.«COLON», N.«value_brackets», T.«QMARK»] [c0, tk T.«COLON» u1.text, c2, tk T.«QMARK» u3.text] (w0 ++ (u1 :: (w2 ++ (u3 :: ([]))))) n := (.nt (by simpa only [List.append_assoc, List.nil_append, List.append_nil, List.cons_append, nextT_append, nextT_cons, nextT_nil] using h0) (.tok k1 (by decide) (.nt (by simpa only [List.append_assoc, List.nil_append, List.append_nil, List.cons_append, nextT_append, nextT_cons, nextT_nil] using h2) (.tok k3 (by decide) .nil) (fun h h' => by first | exact absurd h (by decide) | exact absurd h' (by decide)))) (fun h h' => by first | exact absurd h (by decide) | exact absurd h' (by decide))); simpa only [List.append_assoc, List.nil_append, List.append_nil, List.cons_append, nextT_append, nextT_cons, nextT_nil] using this) (by simp only [keepKids', List.flatMap_cons, List.flatMap_nil, List.replicate_zero, List.replicate_succ, List.getElem?_cons_zero, List.getElem?_cons_succ, Bool.false_eq_true, if_true, if_false, List.append_nil, List.nil_append, List.cons_append, List.append_assoc, kidsOf_nd] <;> rfl)

theorem y_141 {n : Nat} {c0 : Tree} {w0 : List Tok} {u1 : Tok} {c2 : Tree} {w2 : List Tok} (h0 : Y N.«key» c0 w0 u1.type) (k1 : u1.type = T.«COLON») (h2 : Y N.«loop» c2 w2 n) :
    Y N.«pair» (nd "pair" (c0 :: [c2])) (w0 ++ (u1 :: w2)) n :=
  Y.node ⟨N.«pair», [N.«key», T.«COLON», N.«loop»], "pair", false, [(0, false, 0), (2, false, 0)], 0⟩ (by decide +kernel) rfl (by decide) (free_plain (by decide) (by decide)) (cs := [c0, tk T.«COLON» u1.text, c2]) (by have : YL [N.«key», T.«COLON», N.«loop»] [c0, tk T.«COLON» u1.text, c2] (w0 ++ (u1 :: (w2 ++ ([])))) n := (.nt (by simpa only [List.append_assoc, List.nil_append, List.append_nil, List.cons_append, nextT_append, nextT_cons, nextT_nil] using h0) (.tok k1 (by decide) (.nt (by simpa only [List.append_assoc, List.nil_append, List.append_nil, List.cons_append, nextT_append, nextT_cons, nextT_nil] using h2) .nil (fun h h' => by first | exact absurd h (by decide) | exact absurd h' (by decide)))) (fun h h' => by first | exact absurd h (by decide) | exact absurd h' (by decide))); simpa only [List.append_assoc, List.nil_append, List.append_nil, List.cons_append, nextT_append, nextT_cons, nextT_nil] using this) (by simp only [keepKids', List.flatMap_cons, List.flatMap_nil, List.replicate_zero, List.replicate_succ, List.getElem?_cons_zero, List.getElem?_cons_succ, Bool.false_eq_true, if_true, if_false, List.append_nil, List.nil_append, List.cons_append, List.append_assoc, kidsOf_nd] <;> rfl)

theorem y_144 {n : Nat} {c0 : Tree} {w0 : List Tok} {u1 : Tok} {c2 : Tree} {w2 : List Tok} (h0 : Y N.«value_brackets» c0 w0 u1.type) (k1 : u1.type = T.«__ANON_0») (h2 : Y N.«value_brackets» c2 w2 n) (hn : NoInfix n) :
    Y N.«lambda_expression» (nd "lambda_expression" (c0 :: [c2])) (w0 ++ (u1 :: w2)) n :=
  Y.node ⟨N.«lambda_expression», [N.«value_brackets», T.«__ANON_0», N.«value_brackets»], "lambda_expression", false, [(0, false, 0), (2, false, 0)], 0⟩ (by decide +kernel) rfl (by decide) (free_infix (by decide) hn) (cs := [c0, tk T.«__ANON_0» u1.text, c2]) (by have : YL [N.«value_brackets», T.«__ANON_0», N.«value_brackets»] [c0, tk T.«__ANON_0» u1.text, c2] (w0 ++ (u1 :: (w2 ++ ([])))) n := (.nt (by simpa only [List.append_assoc, List.nil_append, List.append_nil, List.cons_append, nextT_append, nextT_cons, nextT_nil] using h0) (.tok k1 (by decide) (.nt (by simpa only [List.append_assoc, List.nil_append, List.append_nil, List.cons_append, nextT_append, nextT_cons, nextT_nil] using h2) .nil (fun h h' => by first | exact absurd h (by decide) | exact absurd h' (by decide)))) (fun h h' => by first | exact absurd h (by decide) | exact absurd h' (by decide))); simpa only [List.append_assoc, List.nil_append, List.append_nil, List.cons_append, nextT_append, nextT_cons, nextT_nil] using this) (by simp only [keepKids', List.flatMap_cons, List.flatMap_nil, List.replicate_zero, List.replicate_succ, List.getElem?_cons_zero, List.getElem?_cons_succ, Bool.false_eq_true, if_true, if_false, List.append_nil, List.nil_append, List.cons_append, List.append_assoc, kidsOf_nd] <;> rfl)

theorem y_147 {n : Nat} {u0 : Tok} {u1 : Tok} {u2 : Tok} {u3 : Tok} {c4 : Tree} {w4 : List Tok} {u5 : Tok} {u6 : Tok} {u7 : Tok} (k0 : u0.type = T.«AT») (k1 : u1.type = T.«__ANON_2») (k2 : u2.type = T.«LPAR») (k3 : u3.type = T.«_CPP_COMMENT_NL») (h4 : Y N.«value_brackets» c4 w4 u5.type) (k5 : u5.type = T.«_CPP_COMMENT_NL») (k6 : u6.type = T.«RPAR») (k7 : u7.type = T.«_CPP_COMMENT_NL») :
    Y N.«decorator» (nd "decorator" (tk T.«__ANON_2» u1.text :: [c4])) (u0 :: (u1 :: (u2 :: (u3 :: (w4 ++ (u5 :: (u6 :: [u7]))))))) n :=
  Y.node ⟨N.«decorator», [T.«AT», T.«__ANON_2», T.«LPAR», T.«_CPP_COMMENT_NL», N.«value_brackets», T.«_CPP_COMMENT_NL», T.«RPAR», T.«_CPP_COMMENT_NL»], "decorator", false, [(1, false, 0), (4, false, 0)], 0⟩ (by decide +kernel) rfl (by decide) (free_plain (by decide) (by decide)) (cs := [tk T.«AT» u0.text, tk T.«__ANON_2» u1.text, tk T.«LPAR» u2.text, tk T.«_CPP_COMMENT_NL» u3.text, c4, tk T.«_CPP_COMMENT_NL» u5.text, tk T.«RPAR» u6.text, tk T.«_CPP_COMMENT_NL» u7.text]) (by have : YL [T.«AT», T.«__ANON_2», T.«LPAR», T.«_CPP_COMMENT_NL», N.«value_brackets», T.«_CPP_COMMENT_NL», T.«RPAR», T.«_CPP_COMMENT_NL»] [tk T.«AT» u0.text, tk T.«__ANON_2» u1.text, tk T.«LPAR» u2.text, tk T.«_CPP_COMMENT_NL» u3.text, c4, tk T.«_CPP_COMMENT_NL» u5.text, tk T.«RPAR» u6.text, tk T.«_CPP_COMMENT_NL» u7.text] (u0 :: (u1 :: (u2 :: (u3 :: (w4 ++ (u5 :: (u6 :: (u7 :: ([]))))))))) n := (.tok k0 (by decide) (.tok k1 (by decide) (.tok k2 (by decide) (.tok k3 (by decide) (.nt (by simpa only [List.append_assoc, List.nil_append, List.append_nil, List.cons_append, nextT_append, nextT_cons, nextT_nil] using h4) (.tok k5 (by decide) (.tok k6 (by decide) (.tok k7 (by decide) .nil))) (fun h h' => by first | exact absurd h (by decide) | exact absurd h' (by decide))))))); simpa only [List.append_assoc, List.nil_append, List.append_nil, List.cons_append, nextT_append, nextT_cons, nextT_nil] using this) (by simp only [keepKids', List.flatMap_cons, List.flatMap_nil, List.replicate_zero, List.replicate_succ, List.getElem?_cons_zero, List.getElem?_cons_succ, Bool.false_eq_true, if_true, if_false, List.append_nil, List.nil_append, List.cons_append, List.append_assoc, kidsOf_nd] <;> rfl)

theorem y_150 {n : Nat} {u0 : Tok} {u1 : Tok} {u2 : Tok} {u3 : Tok} {c4 : Tree} {w4 : List Tok} {u5 : Tok} {u6 : Tok} {u7 : Tok} {u8 : Tok} {u9 : Tok} {u10 : Tok} (k0 : u0.type = T.«AT») (k1 : u1.type = T.«__ANON_2») (k2 : u2.type = T.«LPAR») (k3 : u3.type = T.«_CPP_COMMENT_NL») (h4 : Y N.«value_brackets» c4 w4 u5.type) (k5 : u5.type = T.«_CPP_COMMENT_NL») (k6 : u6.type = T.«RPAR») (k7 : u7.type = T.«_CPP_COMMENT_NL») (k8 : u8.type = T.«_CPP_COMMENT_NL») (k9 : u9.type = T.«_CPP_COMMENT_NL») (k10 : u10.type = T.«_CPP_COMMENT_NL») :
    Y N.«decorator» (nd "decorator" (tk T.«__ANON_2» u1.text :: [c4])) (u0 :: (u1 :: (u2 :: (u3 :: (w4 ++ (u5 :: (u6 :: (u7 :: (u8 :: (u9 :: [u10])))))))))) n :=
  Y.node ⟨N.«decorator», [T.«AT», T.«__ANON_2», T.«LPAR», T.«_CPP_COMMENT_NL», N.«value_brackets», T.«_CPP_COMMENT_NL», T.«RPAR», T.«_CPP_COMMENT_NL», T.«_CPP_COMMENT_NL», T.«_CPP_COMMENT_NL», T.«_CPP_COMMENT_NL»], "decorator", false, [(1, false, 0), (4, false, 0)], 0⟩ (by decide +kernel) rfl (by decide) (free_plain (by decide) (by decide)) (cs := [tk T.«AT» u0.text, tk T.«__ANON_2» u1.text, tk T.«LPAR» u2.text, tk T.«_CPP_COMMENT_NL» u3.text, c4, tk T.«_CPP_COMMENT_NL» u5.text, tk T.«RPAR» u6.text, tk T.«_CPP_COMMENT_NL» u7.text, tk T.«_CPP_COMMENT_NL» u8.text, tk T.«_CPP_COMMENT_NL» u9.text, tk T.«_CPP_COMMENT_NL» u10.text]) (by have : YL [T.«AT», T.«__ANON_2», T.«LPAR», T.«_CPP_COMMENT_NL», N.«value_brackets», T.«_CPP_COMMENT_NL», T.«RPAR», T.«_CPP_COMMENT_NL», T.«_CPP_COMMENT_NL», T.«_CPP_COMMENT_NL», T.«_CPP_COMMENT_NL»] [tk T.«AT» u0.text, tk T.«__ANON_2» u1.text, tk T.«LPAR» u2.text, tk T.«_CPP_COMMENT_NL» u3.text, c4, tk T.«_CPP_COMMENT_NL» u5.text, tk T.«RPAR» u6.text, tk T.«_CPP_COMMENT_NL» u7.text, tk T.«_CPP_COMMENT_NL» u8.text, tk T.«_CPP_COMMENT_NL» u9.text, tk T.«_CPP_COMMENT_NL» u10.text] (u0 :: (u1 :: (u2 :: (u3 :: (w4 ++ (u5 :: (u6 :: (u7 :: (u8 :: (u9 :: (u10 :: ([])))))))))))) n := (.tok k0 (by decide) (.tok k1 (by decide) (.tok k2 (by decide) (.tok k3 (by decide) (.nt (by simpa only [List.append_assoc, List.nil_append, List.append_nil, List.cons_append, nextT_append, nextT_cons, nextT_nil] using h4) (.tok k5 (by decide) (.tok k6 (by decide) (.tok k7 (by decide) (.tok k8 (by decide) (.tok k9 (by decide) (.tok k10 (by decide) .nil)))))) (fun h h' => by first | exact absurd h (by decide) | exact absurd h' (by decide))))))); simpa only [List.append_assoc, List.nil_append, List.append_nil, List.cons_append, nextT_append, nextT_cons, nextT_nil] using this) (by simp only [keepKids', List.flatMap_cons, List.flatMap_nil, List.replicate_zero, List.replicate_succ, List.getElem?_cons_zero, List.getElem?_cons_succ, Bool.false_eq_true, if_true, if_false, List.append_nil, List.nil_append, List.cons_append, List.append_assoc, kidsOf_nd] <;> rfl)

theorem y_153 {n : Nat} {u0 : Tok} {u1 : Tok} {u2 : Tok} {u3 : Tok} {c4 : Tree} {w4 : List Tok} {u5 : Tok} {u6 : Tok} {u7 : Tok} {u8 : Tok} {u9 : Tok} {u10 : Tok} {u11 : Tok} {u12 : Tok} {u13 : Tok} (k0 : u0.type = T.«AT») (k1 : u1.type = T.«__ANON_2») (k2 : u2.type = T.«LPAR») (k3 : u3.type = T.«_CPP_COMMENT_NL») (h4 : Y N.«value_brackets» c4 w4 u5.type) (k5 : u5.type = T.«_CPP_COMMENT_NL») (k6 : u6.type = T.«RPAR») (k7 : u7.type = T.«_CPP_COMMENT_NL») (k8 : u8.type = T.«_CPP_COMMENT_NL») (k9 : u9.type = T.«_CPP_COMMENT_NL») (k10 : u10.type = T.«_CPP_COMMENT_NL») (k11 : u11.type = T.«_CPP_COMMENT_NL») (k12 : u12.type = T.«_CPP_COMMENT_NL») (k13 : u13.type = T.«_CPP_COMMENT_NL») :
    Y N.«decorator» (nd "decorator" (tk T.«__ANON_2» u1.text :: [c4])) (u0 :: (u1 :: (u2 :: (u3 :: (w4 ++ (u5 :: (u6 :: (u7 :: (u8 :: (u9 :: (u10 :: (u11 :: (u12 :: [u13]))))))))))))) n :=
  Y.node ⟨N.«decorator», [T.«AT», T.«__ANON_2», T.«LPAR», T.«_CPP_COMMENT_NL», N.«value_brackets», T.«_CPP_COMMENT_NL», T.«RPAR», T.«_CPP_COMMENT_NL», T.«_CPP_COMMENT_NL», T.«_CPP_COMMENT_NL», T.«_CPP_COMMENT_NL», T.«_CPP_COMMENT_NL», T.«_CPP_COMMENT_NL», T.«_CPP_COMMENT_NL»], "decorator", false, [(1, false, 0), (4, false, 0)], 0⟩ (by decide +kernel) rfl (by decide) (free_plain (by decide) (by decide)) (cs := [tk T.«AT» u0.text, tk T.«__ANON_2» u1.text, tk T.«LPAR» u2.text, tk T.«_CPP_COMMENT_NL» u3.text, c4, tk T.«_CPP_COMMENT_NL» u5.text, tk T.«RPAR» u6.text, tk T.«_CPP_COMMENT_NL» u7.text, tk T.«_CPP_COMMENT_NL» u8.text, tk T.«_CPP_COMMENT_NL» u9.text, tk T.«_CPP_COMMENT_NL» u10.text, tk T.«_CPP_COMMENT_NL» u11.text, tk T.«_CPP_COMMENT_NL» u12.text, tk T.«_CPP_COMMENT_NL» u13.text]) (by have : YL [T.«AT», T.«__ANON_2», T.«LPAR», T.«_CPP_COMMENT_NL», N.«value_brackets», T.«_CPP_COMMENT_NL», T.«RPAR», T.«_CPP_COMMENT_NL», T.«_CPP_COMMENT_NL», T.«_CPP_COMMENT_NL», T.«_CPP_COMMENT_NL», T.«_CPP_COMMENT_NL», T.«_CPP_COMMENT_NL», T.«_CPP_COMMENT_NL»] [tk T.«AT» u0.text, tk T.«__ANON_2» u1.text, tk T.«LPAR» u2.text, tk T.«_CPP_COMMENT_NL» u3.text, c4, tk T.«_CPP_COMMENT_NL» u5.text, tk T.«RPAR» u6.text, tk T.«_CPP_COMMENT_NL» u7.text, tk T.«_CPP_COMMENT_NL» u8.text, tk T.«_CPP_COMMENT_NL» u9.text, tk T.«_CPP_COMMENT_NL» u10.text, tk T.«_CPP_COMMENT_NL» u11.text, tk T.«_CPP_COMMENT_NL» u12.text, tk T.«_CPP_COMMENT_NL» u13.text] (u0 :: (u1 :: (u2 :: (u3 :: (w4 ++ (u5 :: (u6 :: (u7 :: (u8 :: (u9 :: (u10 :: (u11 :: (u12 :: (u13 :: ([]))))))))))))))) n := (.tok k0 (by decide) (.tok k1 (by decide) (.tok k2 (by decide) (.tok k3 (by decide) (.nt (by simpa only [List.append_assoc, List.nil_append, List.append_nil, List.cons_append, nextT_append, nextT_cons, nextT_nil] using h4) (.tok k5 (by decide) (.tok k6 (by decide) (.tok k7 (by decide) (.tok k8 (by decide) (.tok k9 (by decide) (.tok k10 (by decide) (.tok k11 (by decide) (.tok k12 (by decide) (.tok k13 (by decide) .nil))))))))) (fun h h' => by first | exact absurd h (by decide) | exact absurd h' (by decide))))))); simpa only [List.append_assoc, List.nil_append, List.append_nil, List.cons_append, nextT_append, nextT_cons, nextT_nil] using this) (by simp only [keepKids', List.flatMap_cons, List.flatMap_nil, List.replicate_zero, List.replicate_succ, List.getElem?_cons_zero, List.getElem?_cons_succ, Bool.false_eq_true, if_true, if_false, List.append_nil, List.nil_append, List.cons_append, List.append_assoc, kidsOf_nd] <;> rfl)

theorem y_156 {n : Nat} {u0 : Tok} {u1 : Tok} {u2 : Tok} {u3 : Tok} {c4 : Tree} {w4 : List Tok} {u5 : Tok} {u6 : Tok} {u7 : Tok} {u8 : Tok} {u9 : Tok} {u10 : Tok} {u11 : Tok} {u12 : Tok} {u13 : Tok} {u14 : Tok} {u15 : Tok} {u16 : Tok} (k0 : u0.type = T.«AT») (k1 : u1.type = T.«__ANON_2») (k2 : u2.type = T.«LPAR») (k3 : u3.type = T.«_CPP_COMMENT_NL») (h4 : Y N.«value_brackets» c4 w4 u5.type) (k5 : u5.type = T.«_CPP_COMMENT_NL») (k6 : u6.type = T.«RPAR») (k7 : u7.type = T.«_CPP_COMMENT_NL») (k8 : u8.type = T.«_CPP_COMMENT_NL») (k9 : u9.type = T.«_CPP_COMMENT_NL») (k10 : u10.type = T.«_CPP_COMMENT_NL») (k11 : u11.type = T.«_CPP_COMMENT_NL») (k12 : u12.type = T.«_CPP_COMMENT_NL») (k13 : u13.type = T.«_CPP_COMMENT_NL») (k14 : u14.type = T.«_CPP_COMMENT_NL») (k15 : u15.type = T.«_CPP_COMMENT_NL») (k16 : u16.type = T.«_CPP_COMMENT_NL») :
    Y N.«decorator» (nd "decorator" (tk T.«__ANON_2» u1.text :: [c4])) (u0 :: (u1 :: (u2 :: (u3 :: (w4 ++ (u5 :: (u6 :: (u7 :: (u8 :: (u9 :: (u10 :: (u11 :: (u12 :: (u13 :: (u14 :: (u15 :: [u16])))))))))))))))) n :=
  Y.node ⟨N.«decorator», [T.«AT», T.«__ANON_2», T.«LPAR», T.«_CPP_COMMENT_NL», N.«value_brackets», T.«_CPP_COMMENT_NL», T.«RPAR», T.«_CPP_COMMENT_NL», T.«_CPP_COMMENT_NL», T.«_CPP_COMMENT_NL», T.«_CPP_COMMENT_NL», T.«_CPP_COMMENT_NL», T.«_CPP_COMMENT_NL», T.«_CPP_COMMENT_NL», T.«_CPP_COMMENT_NL», T.«_CPP_COMMENT_NL», T.«_CPP_COMMENT_NL»], "decorator", false, [(1, false, 0), (4, false, 0)], 0⟩ (by decide +kernel) rfl (by decide) (free_plain (by decide) (by decide)) (cs := [tk T.«AT» u0.text, tk T.«__ANON_2» u1.text, tk T.«LPAR» u2.text, tk T.«_CPP_COMMENT_NL» u3.text, c4, tk T.«_CPP_COMMENT_NL» u5.text, tk T.«RPAR» u6.text, tk T.«_CPP_COMMENT_NL» u7.text, tk T.«_CPP_COMMENT_NL» u8.text, tk T.«_CPP_COMMENT_NL» u9.text, tk T.«_CPP_COMMENT_NL» u10.text, tk T.«_CPP_COMMENT_NL» u11.text, tk T.«_CPP_COMMENT_NL» u12.text, tk T.«_CPP_COMMENT_NL» u13.text, tk T.«_CPP_COMMENT_NL» u14.text, tk T.«_CPP_COMMENT_NL» u15.text, tk T.«_CPP_COMMENT_NL» u16.text]) (by have : YL [T.«AT», T.«__ANON_2», T.«LPAR», T.«_CPP_COMMENT_NL», N.«value_brackets», T.«_CPP_COMMENT_NL», T.«RPAR», T.«_CPP_COMMENT_NL», T.«_CPP_COMMENT_NL», T.«_CPP_COMMENT_NL», T.«_CPP_COMMENT_NL», T.«_CPP_COMMENT_NL», T.«_CPP_COMMENT_NL», T.«_CPP_COMMENT_NL», T.«_CPP_COMMENT_NL», T.«_CPP_COMMENT_NL», T.«_CPP_COMMENT_NL»] [tk T.«AT» u0.text, tk T.«__ANON_2» u1.text, tk T.«LPAR» u2.text, tk T.«_CPP_COMMENT_NL» u3.text, c4, tk T.«_CPP_COMMENT_NL» u5.text, tk T.«RPAR» u6.text, tk T.«_CPP_COMMENT_NL» u7.text, tk T.«_CPP_COMMENT_NL» u8.text, tk T.«_CPP_COMMENT_NL» u9.text, tk T.«_CPP_COMMENT_NL» u10.text, tk T.«_CPP_COMMENT_NL» u11.text, tk T.«_CPP_COMMENT_NL» u12.text, tk T.«_CPP_COMMENT_NL» u13.text, tk T.«_CPP_COMMENT_NL» u14.text, tk T.«_CPP_COMMENT_NL» u15.text, tk T.«_CPP_COMMENT_NL» u16.text] (u0 :: (u1 :: (u2 :: (u3 :: (w4 ++ (u5 :: (u6 :: (u7 :: (u8 :: (u9 :: (u10 :: (u11 :: (u12 :: (u13 :: (u14 :: (u15 :: (u16 :: ([])))))))))))))))))) n := (.tok k0 (by decide) (.tok k1 (by decide) (.tok k2 (by decide) (.tok k3 (by decide) (.nt (by simpa only [List.append_assoc, List.nil_append, List.append_nil, List.cons_append, nextT_append, nextT_cons, nextT_nil] using h4) (.tok k5 (by decide) (.tok k6 (by decide) (.tok k7 (by decide) (.tok k8 (by decide) (.tok k9 (by decide) (.tok k10 (by decide) (.tok k11 (by decide) (.tok k12 (by decide) (.tok k13 (by decide) (.tok k14 (by decide) (.tok k15 (by decide) (.tok k16 (by decide) .nil)))))))))))) (fun h h' => by first | exact absurd h (by decide) | exact absurd h' (by decide))))))); simpa only [List.append_assoc, List.nil_append, List.append_nil, List.cons_append, nextT_append, nextT_cons, nextT_nil] using this) (by simp only [keepKids', List.flatMap_cons, List.flatMap_nil, List.replicate_zero, List.replicate_succ, List.getElem?_cons_zero, List.getElem?_cons_succ, Bool.false_eq_true, if_true, if_false, List.append_nil, List.nil_append, List.cons_append, List.append_assoc, kidsOf_nd] <;> rfl)

theorem y_159 {n : Nat} {u0 : Tok} {u1 : Tok} {u2 : Tok} {u3 : Tok} {c4 : Tree} {w4 : List Tok} {u5 : Tok} {u6 : Tok} {u7 : Tok} (k0 : u0.type = T.«AT») (k1 : u1.type = T.«__ANON_2») (k2 : u2.type = T.«LPAR») (k3 : u3.type = T.«_CPP_COMMENT_NL») (h4 : Y N.«value_brackets» c4 w4 u5.type) (k5 : u5.type = T.«RPAR») (k6 : u6.type = T.«_CPP_COMMENT_NL») (k7 : u7.type = T.«_CPP_COMMENT_NL») :
    Y N.«decorator» (nd "decorator" (tk T.«__ANON_2» u1.text :: [c4])) (u0 :: (u1 :: (u2 :: (u3 :: (w4 ++ (u5 :: (u6 :: [u7]))))))) n :=
  Y.node ⟨N.«decorator», [T.«AT», T.«__ANON_2», T.«LPAR», T.«_CPP_COMMENT_NL», N.«value_brackets», T.«RPAR», T.«_CPP_COMMENT_NL», T.«_CPP_COMMENT_NL»], "decorator", false, [(1, false, 0), (4, false, 0)], 0⟩ (by decide +kernel) rfl (by decide) (free_plain (by decide) (by decide)) (cs := [tk T.«AT» u0.text, tk T.«__ANON_2» u1.text, tk T.«LPAR» u2.text, tk T.«_CPP_COMMENT_NL» u3.text, c4, tk T.«RPAR» u5.text, tk T.«_CPP_COMMENT_NL» u6.text, tk T.«_CPP_COMMENT_NL» u7.text]) (by have : YL [T.«AT», T.«__ANON_2», T.«LPAR», T.«_CPP_COMMENT_NL», N.«value_brackets», T.«RPAR», T.«_CPP_COMMENT_NL», T.«_CPP_COMMENT_NL»] [tk T.«AT» u0.text, tk T.«__ANON_2» u1.text, tk T.«LPAR» u2.text, tk T.«_CPP_COMMENT_NL» u3.text, c4, tk T.«RPAR» u5.text, tk T.«_CPP_COMMENT_NL» u6.text, tk T.«_CPP_COMMENT_NL» u7.text] (u0 :: (u1 :: (u2 :: (u3 :: (w4 ++ (u5 :: (u6 :: (u7 :: ([]))))))))) n := (.tok k0 (by decide) (.tok k1 (by decide) (.tok k2 (by decide) (.tok k3 (by decide) (.nt (by simpa only [List.append_assoc, List.nil_append, List.append_nil, List.cons_append, nextT_append, nextT_cons, nextT_nil] using h4) (.tok k5 (by decide) (.tok k6 (by decide) (.tok k7 (by decide) .nil))) (fun h h' => by first | exact absurd h (by decide) | exact absurd h' (by decide))))))); simpa only [List.append_assoc, List.nil_append, List.append_nil, List.cons_append, nextT_append, nextT_cons, nextT_nil] using this) (by simp only [keepKids', List.flatMap_cons, List.flatMap_nil, List.replicate_zero, List.replicate_succ, List.getElem?_cons_zero, List.getElem?_cons_succ, Bool.false_eq_true, if_true, if_false, List.append_nil, List.nil_append, List.cons_append, List.append_assoc, kidsOf_nd] <;> rfl)

theorem y_162 {n : Nat} {u0 : Tok} {u1 : Tok} {u2 : Tok} {u3 : Tok} {c4 : Tree} {w4 : List Tok} {u5 : Tok} {u6 : Tok} {u7 : Tok} {u8 : Tok} {u9 : Tok} {u10 : Tok} (k0 : u0.type = T.«AT») (k1 : u1.type = T.«__ANON_2») (k2 : u2.type = T.«LPAR») (k3 : u3.type = T.«_CPP_COMMENT_NL») (h4 : Y N.«value_brackets» c4 w4 u5.type) (k5 : u5.type = T.«RPAR») (k6 : u6.type = T.«_CPP_COMMENT_NL») (k7 : u7.type = T.«_CPP_COMMENT_NL») (k8 : u8.type = T.«_CPP_COMMENT_NL») (k9 : u9.type = T.«_CPP_COMMENT_NL») (k10 : u10.type = T.«_CPP_COMMENT_NL») :
    Y N.«decorator» (nd "decorator" (tk T.«__ANON_2» u1.text :: [c4])) (u0 :: (u1 :: (u2 :: (u3 :: (w4 ++ (u5 :: (u6 :: (u7 :: (u8 :: (u9 :: [u10])))))))))) n :=
  Y.node ⟨N.«decorator», [T.«AT», T.«__ANON_2», T.«LPAR», T.«_CPP_COMMENT_NL», N.«value_brackets», T.«RPAR», T.«_CPP_COMMENT_NL», T.«_CPP_COMMENT_NL», T.«_CPP_COMMENT_NL», T.«_CPP_COMMENT_NL», T.«_CPP_COMMENT_NL»], "decorator", false, [(1, false, 0), (4, false, 0)], 0⟩ (by decide +kernel) rfl (by decide) (free_plain (by decide) (by decide)) (cs := [tk T.«AT» u0.text, tk T.«__ANON_2» u1.text, tk T.«LPAR» u2.text, tk T.«_CPP_COMMENT_NL» u3.text, c4, tk T.«RPAR» u5.text, tk T.«_CPP_COMMENT_NL» u6.text, tk T.«_CPP_COMMENT_NL» u7.text, tk T.«_CPP_COMMENT_NL» u8.text, tk T.«_CPP_COMMENT_NL» u9.text, tk T.«_CPP_COMMENT_NL» u10.text]) (by have : YL [T.«AT», T.«__ANON_2», T.«LPAR», T.«_CPP_COMMENT_NL», N.«value_brackets», T.«RPAR», T.«_CPP_COMMENT_NL», T.«_CPP_COMMENT_NL», T.«_CPP_COMMENT_NL», T.«_CPP_COMMENT_NL», T.«_CPP_COMMENT_NL»] [tk T.«AT» u0.text, tk T.«__ANON_2» u1.text, tk T.«LPAR» u2.text, tk T.«_CPP_COMMENT_NL» u3.text, c4, tk T.«RPAR» u5.text, tk T.«_CPP_COMMENT_NL» u6.text, tk T.«_CPP_COMMENT_NL» u7.text, tk T.«_CPP_COMMENT_NL» u8.text, tk T.«_CPP_COMMENT_NL» u9.text, tk T.«_CPP_COMMENT_NL» u10.text] (u0 :: (u1 :: (u2 :: (u3 :: (w4 ++ (u5 :: (u6 :: (u7 :: (u8 :: (u9 :: (u10 :: ([])))))))))))) n := (.tok k0 (by decide) (.tok k1 (by decide) (.tok k2 (by decide) (.tok k3 (by decide) (.nt (by simpa only [List.append_assoc, List.nil_append, List.append_nil, List.cons_append, nextT_append, nextT_cons, nextT_nil] using h4) (.tok k5 (by decide) (.tok k6 (by decide) (.tok k7 (by decide) (.tok k8 (by decide) (.tok k9 (by decide) (.tok k10 (by decide) .nil)))))) (fun h h' => by first | exact absurd h (by decide) | exact absurd h' (by decide))))))); simpa only [List.append_assoc, List.nil_append, List.append_nil, List.cons_append, nextT_append, nextT_cons, nextT_nil] using this) (by simp only [keepKids', List.flatMap_cons, List.flatMap_nil, List.replicate_zero, List.replicate_succ, List.getElem?_cons_zero, List.getElem?_cons_succ, Bool.false_eq_true, if_true, if_false, List.append_nil, List.nil_append, List.cons_append, List.append_assoc, kidsOf_nd] <;> rfl)

theorem y_165 {n : Nat} {u0 : Tok} {u1 : Tok} {u2 : Tok} {u3 : Tok} {c4 : Tree} {w4 : List Tok} {u5 : Tok} {u6 : Tok} {u7 : Tok} {u8 : Tok} {u9 : Tok} {u10 : Tok} {u11 : Tok} {u12 : Tok} {u13 : Tok} (k0 : u0.type = T.«AT») (k1 : u1.type = T.«__ANON_2») (k2 : u2.type = T.«LPAR») (k3 : u3.type = T.«_CPP_COMMENT_NL») (h4 : Y N.«value_brackets» c4 w4 u5.type) (k5 : u5.type = T.«RPAR») (k6 : u6.type = T.«_CPP_COMMENT_NL») (k7 : u7.type = T.«_CPP_COMMENT_NL») (k8 : u8.type = T.«_CPP_COMMENT_NL») (k9 : u9.type = T.«_CPP_COMMENT_NL») (k10 : u10.type = T.«_CPP_COMMENT_NL») (k11 : u11.type = T.«_CPP_COMMENT_NL») (k12 : u12.type = T.«_CPP_COMMENT_NL») (k13 : u13.type = T.«_CPP_COMMENT_NL») :
    Y N.«decorator» (nd "decorator" (tk T.«__ANON_2» u1.text :: [c4])) (u0 :: (u1 :: (u2 :: (u3 :: (w4 ++ (u5 :: (u6 :: (u7 :: (u8 :: (u9 :: (u10 :: (u11 :: (u12 :: [u13]))))))))))))) n :=
  Y.node ⟨N.«decorator», [T.«AT», T.«__ANON_2», T.«LPAR», T.«_CPP_COMMENT_NL», N.«value_brackets», T.«RPAR», T.«_CPP_COMMENT_NL», T.«_CPP_COMMENT_NL», T.«_CPP_COMMENT_NL», T.«_CPP_COMMENT_NL», T.«_CPP_COMMENT_NL», T.«_CPP_COMMENT_NL», T.«_CPP_COMMENT_NL», T.«_CPP_COMMENT_NL»], "decorator", false, [(1, false, 0), (4, false, 0)], 0⟩ (by decide +kernel) rfl (by decide) (free_plain (by decide) (by decide)) (cs := [tk T.«AT» u0.text, tk T.«__ANON_2» u1.text, tk T.«LPAR» u2.text, tk T.«_CPP_COMMENT_NL» u3.text, c4, tk T.«RPAR» u5.text, tk T.«_CPP_COMMENT_NL» u6.text, tk T.«_CPP_COMMENT_NL» u7.text, tk T.«_CPP_COMMENT_NL» u8.text, tk T.«_CPP_COMMENT_NL» u9.text, tk T.«_CPP_COMMENT_NL» u10.text, tk T.«_CPP_COMMENT_NL» u11.text, tk T.«_CPP_COMMENT_NL» u12.text, tk T.«_CPP_COMMENT_NL» u13.text]) (by have : YL [T.«AT», T.«__ANON_2», T.«LPAR», T.«_CPP_COMMENT_NL», N.«value_brackets», T.«RPAR», T.«_CPP_COMMENT_NL», T.«_CPP_COMMENT_NL», T.«_CPP_COMMENT_NL», T.«_CPP_COMMENT_NL», T.«_CPP_COMMENT_NL», T.«_CPP_COMMENT_NL», T.«_CPP_COMMENT_NL», T.«_CPP_COMMENT_NL»] [tk T.«AT» u0.text, tk T.«__ANON_2» u1.text, tk T.«LPAR» u2.text, tk T.«_CPP_COMMENT_NL» u3.text, c4, tk T.«RPAR» u5.text, tk T.«_CPP_COMMENT_NL» u6.text, tk T.«_CPP_COMMENT_NL» u7.text, tk T.«_CPP_COMMENT_NL» u8.text, tk T.«_CPP_COMMENT_NL» u9.text, tk T.«_CPP_COMMENT_NL» u10.text, tk T.«_CPP_COMMENT_NL» u11.text, tk T.«_CPP_COMMENT_NL» u12.text, tk T.«_CPP_COMMENT_NL» u13.text] (u0 :: (u1 :: (u2 :: (u3 :: (w4 ++ (u5 :: (u6 :: (u7 :: (u8 :: (u9 :: (u10 :: (u11 :: (u12 :: (u13 :: ([]))))))))))))))) n := (.tok k0 (by decide) (.tok k1 (by decide) (.tok k2 (by decide) (.tok k3 (by decide) (.nt (by simpa only [List.append_assoc, List.nil_append, List.append_nil, List.cons_append, nextT_append, nextT_cons, nextT_nil] using h4) (.tok k5 (by decide) (.tok k6 (by decide) (.tok k7 (by decide) (.tok k8 (by decide) (.tok k9 (by decide) (.tok k10 (by decide) (.tok k11 (by decide) (.tok k12 (by decide) (.tok k13 (by decide) .nil))))))))) (fun h h' => by first | exact absurd h (by decide) | exact absurd h' (by decide))))))); simpa only [List.append_assoc, List.nil_append, List.append_nil, List.cons_append, nextT_append, nextT_cons, nextT_nil] using this) (by simp only [keepKids', List.flatMap_cons, List.flatMap_nil, List.replicate_zero, List.replicate_succ, List.getElem?_cons_zero, List.getElem?_cons_succ, Bool.false_eq_true, if_true, if_false, List.append_nil, List.nil_append, List.cons_append, List.append_assoc, kidsOf_nd] <;> rfl)

theorem y_168 {n : Nat} {u0 : Tok} {u1 : Tok} {u2 : Tok} {u3 : Tok} {u4 : Tok} {u5 : Tok} (k0 : u0.type = T.«AT») (k1 : u1.type = T.«__ANON_2») (k2 : u2.type = T.«LPAR») (k3 : u3.type = T.«_CPP_COMMENT_NL») (k4 : u4.type = T.«_CPP_COMMENT_NL») (k5 : u5.type = T.«RPAR») :
    Y N.«decorator» (nd "decorator" [tk T.«__ANON_2» u1.text]) (u0 :: (u1 :: (u2 :: (u3 :: (u4 :: [u5]))))) n :=
  Y.node ⟨N.«decorator», [T.«AT», T.«__ANON_2», T.«LPAR», T.«_CPP_COMMENT_NL», T.«_CPP_COMMENT_NL», T.«RPAR»], "decorator", false, [(1, false, 0)], 0⟩ (by decide +kernel) rfl (by decide) (free_plain (by decide) (by decide)) (cs := [tk T.«AT» u0.text, tk T.«__ANON_2» u1.text, tk T.«LPAR» u2.text, tk T.«_CPP_COMMENT_NL» u3.text, tk T.«_CPP_COMMENT_NL» u4.text, tk T.«RPAR» u5.text]) (by have : YL [T.«AT», T.«__ANON_2», T.«LPAR», T.«_CPP_COMMENT_NL», T.«_CPP_COMMENT_NL», T.«RPAR»] [tk T.«AT» u0.text, tk T.«__ANON_2» u1.text, tk T.«LPAR» u2.text, tk T.«_CPP_COMMENT_NL» u3.text, tk T.«_CPP_COMMENT_NL» u4.text, tk T.«RPAR» u5.text] (u0 :: (u1 :: (u2 :: (u3 :: (u4 :: (u5 :: ([]))))))) n := (.tok k0 (by decide) (.tok k1 (by decide) (.tok k2 (by decide) (.tok k3 (by decide) (.tok k4 (by decide) (.tok k5 (by decide) .nil)))))); simpa only [List.append_assoc, List.nil_append, List.append_nil, List.cons_append, nextT_append, nextT_cons, nextT_nil] using this) (by simp only [keepKids', List.flatMap_cons, List.flatMap_nil, List.replicate_zero, List.replicate_succ, List.getElem?_cons_zero, List.getElem?_cons_succ, Bool.false_eq_true, if_true, if_false, List.append_nil, List.nil_append, List.cons_append, List.append_assoc, kidsOf_nd] <;> rfl)

theorem y_171 {n : Nat} {u0 : Tok} {u1 : Tok} {u2 : Tok} {u3 : Tok} {u4 : Tok} {u5 : Tok} {u6 : Tok} {u7 : Tok} {u8 : Tok} (k0 : u0.type = T.«AT») (k1 : u1.type = T.«__ANON_2») (k2 : u2.type = T.«LPAR») (k3 : u3.type = T.«_CPP_COMMENT_NL») (k4 : u4.type = T.«_CPP_COMMENT_NL») (k5 : u5.type = T.«RPAR») (k6 : u6.type = T.«_CPP_COMMENT_NL») (k7 : u7.type = T.«_CPP_COMMENT_NL») (k8 : u8.type = T.«_CPP_COMMENT_NL») :
    Y N.«decorator» (nd "decorator" [tk T.«__ANON_2» u1.text]) (u0 :: (u1 :: (u2 :: (u3 :: (u4 :: (u5 :: (u6 :: (u7 :: [u8])))))))) n :=
  Y.node ⟨N.«decorator», [T.«AT», T.«__ANON_2», T.«LPAR», T.«_CPP_COMMENT_NL», T.«_CPP_COMMENT_NL», T.«RPAR», T.«_CPP_COMMENT_NL», T.«_CPP_COMMENT_NL», T.«_CPP_COMMENT_NL»], "decorator", false, [(1, false, 0)], 0⟩ (by decide +kernel) rfl (by decide) (free_plain (by decide) (by decide)) (cs := [tk T.«AT» u0.text, tk T.«__ANON_2» u1.text, tk T.«LPAR» u2.text, tk T.«_CPP_COMMENT_NL» u3.text, tk T.«_CPP_COMMENT_NL» u4.text, tk T.«RPAR» u5.text, tk T.«_CPP_COMMENT_NL» u6.text, tk T.«_CPP_COMMENT_NL» u7.text, tk T.«_CPP_COMMENT_NL» u8.text]) (by have : YL [T.«AT», T.«__ANON_2», T.«LPAR», T.«_CPP_COMMENT_NL», T.«_CPP_COMMENT_NL», T.«RPAR», T.«_CPP_COMMENT_NL», T.«_CPP_COMMENT_NL», T.«_CPP_COMMENT_NL»] [tk T.«AT» u0.text, tk T.«__ANON_2» u1.text, tk T.«LPAR» u2.text, tk T.«_CPP_COMMENT_NL» u3.text, tk T.«_CPP_COMMENT_NL» u4.text, tk T.«RPAR» u5.text, tk T.«_CPP_COMMENT_NL» u6.text, tk T.«_CPP_COMMENT_NL» u7.text, tk T.«_CPP_COMMENT_NL» u8.text] (u0 :: (u1 :: (u2 :: (u3 :: (u4 :: (u5 :: (u6 :: (u7 :: (u8 :: ([])))))))))) n := (.tok k0 (by decide) (.tok k1 (by decide) (.tok k2 (by decide) (.tok k3 (by decide) (.tok k4 (by decide) (.tok k5 (by decide) (.tok k6 (by decide) (.tok k7 (by decide) (.tok k8 (by decide) .nil))))))))); simpa only [List.append_assoc, List.nil_append, List.append_nil, List.cons_append, nextT_append, nextT_cons, nextT_nil] using this) (by simp only [keepKids', List.flatMap_cons, List.flatMap_nil, List.replicate_zero, List.replicate_succ, List.getElem?_cons_zero, List.getElem?_cons_succ, Bool.false_eq_true, if_true, if_false, List.append_nil, List.nil_append, List.cons_append, List.append_assoc, kidsOf_nd] <;> rfl)

theorem y_174 {n : Nat} {u0 : Tok} {u1 : Tok} {u2 : Tok} {u3 : Tok} {u4 : Tok} {u5 : Tok} {u6 : Tok} {u7 : Tok} {u8 : Tok} {u9 : Tok} {u10 : Tok} {u11 : Tok} (k0 : u0.type = T.«AT») (k1 : u1.type = T.«__ANON_2») (k2 : u2.type = T.«LPAR») (k3 : u3.type = T.«_CPP_COMMENT_NL») (k4 : u4.type = T.«_CPP_COMMENT_NL») (k5 : u5.type = T.«RPAR») (k6 : u6.type = T.«_CPP_COMMENT_NL») (k7 : u7.type = T.«_CPP_COMMENT_NL») (k8 : u8.type = T.«_CPP_COMMENT_NL») (k9 : u9.type = T.«_CPP_COMMENT_NL») (k10 : u10.type = T.«_CPP_COMMENT_NL») (k11 : u11.type = T.«_CPP_COMMENT_NL») :
    Y N.«decorator» (nd "decorator" [tk T.«__ANON_2» u1.text]) (u0 :: (u1 :: (u2 :: (u3 :: (u4 :: (u5 :: (u6 :: (u7 :: (u8 :: (u9 :: (u10 :: [u11]))))))))))) n :=
  Y.node ⟨N.«decorator», [T.«AT», T.«__ANON_2», T.«LPAR», T.«_CPP_COMMENT_NL», T.«_CPP_COMMENT_NL», T.«RPAR», T.«_CPP_COMMENT_NL», T.«_CPP_COMMENT_NL», T.«_CPP_COMMENT_NL», T.«_CPP_COMMENT_NL», T.«_CPP_COMMENT_NL», T.«_CPP_COMMENT_NL»], "decorator", false, [(1, false, 0)], 0⟩ (by decide +kernel) rfl (by decide) (free_plain (by decide) (by decide)) (cs := [tk T.«AT» u0.text, tk T.«__ANON_2» u1.text, tk T.«LPAR» u2.text, tk T.«_CPP_COMMENT_NL» u3.text, tk T.«_CPP_COMMENT_NL» u4.text, tk T.«RPAR» u5.text, tk T.«_CPP_COMMENT_NL» u6.text, tk T.«_CPP_COMMENT_NL» u7.text, tk T.«_CPP_COMMENT_NL» u8.text, tk T.«_CPP_COMMENT_NL» u9.text, tk T.«_CPP_COMMENT_NL» u10.text, tk T.«_CPP_COMMENT_NL» u11.text]) (by have : YL [T.«AT», T.«__ANON_2», T.«LPAR», T.«_CPP_COMMENT_NL», T.«_CPP_COMMENT_NL», T.«RPAR», T.«_CPP_COMMENT_NL», T.«_CPP_COMMENT_NL», T.«_CPP_COMMENT_NL», T.«_CPP_COMMENT_NL», T.«_CPP_COMMENT_NL», T.«_CPP_COMMENT_NL»] [tk T.«AT» u0.text, tk T.«__ANON_2» u1.text, tk T.«LPAR» u2.text, tk T.«_CPP_COMMENT_NL» u3.text, tk T.«_CPP_COMMENT_NL» u4.text, tk T.«RPAR» u5.text, tk T.«_CPP_COMMENT_NL» u6.text, tk T.«_CPP_COMMENT_NL» u7.text, tk T.«_CPP_COMMENT_NL» u8.text, tk T.«_CPP_COMMENT_NL» u9.text, tk T.«_CPP_COMMENT_NL» u10.text, tk T.«_CPP_COMMENT_NL» u11.text] (u0 :: (u1 :: (u2 :: (u3 :: (u4 :: (u5 :: (u6 :: (u7 :: (u8 :: (u9 :: (u10 :: (u11 :: ([]))))))))))))) n := (.tok k0 (by decide) (.tok k1 (by decide) (.tok k2 (by decide) (.tok k3 (by decide) (.tok k4 (by decide) (.tok k5 (by decide) (.tok k6 (by decide) (.tok k7 (by decide) (.tok k8 (by decide) (.tok k9 (by decide) (.tok k10 (by decide) (.tok k11 (by decide) .nil)))))))))))); simpa only [List.append_assoc, List.nil_append, List.append_nil, List.cons_append, nextT_append, nextT_cons, nextT_nil] using this) (by simp only [keepKids', List.flatMap_cons, List.flatMap_nil, List.replicate_zero, List.replicate_succ, List.getElem?_cons_zero, List.getElem?_cons_succ, Bool.false_eq_true, if_true, if_false, List.append_nil, List.nil_append, List.cons_append, List.append_assoc, kidsOf_nd] <;> rfl)

theorem y_177 {n : Nat} {u0 : Tok} {u1 : Tok} {u2 : Tok} {u3 : Tok} {u4 : Tok} {u5 : Tok} {u6 : Tok} {u7 : Tok} {u8 : Tok} {u9 : Tok} {u10 : Tok} {u11 : Tok} {u12 : Tok} {u13 : Tok} {u14 : Tok} (k0 : u0.type = T.«AT») (k1 : u1.type = T.«__ANON_2») (k2 : u2.type = T.«LPAR») (k3 : u3.type = T.«_CPP_COMMENT_NL») (k4 : u4.type = T.«_CPP_COMMENT_NL») (k5 : u5.type = T.«RPAR») (k6 : u6.type = T.«_CPP_COMMENT_NL») (k7 : u7.type = T.«_CPP_COMMENT_NL») (k8 : u8.type = T.«_CPP_COMMENT_NL») (k9 : u9.type = T.«_CPP_COMMENT_NL») (k10 : u10.type = T.«_CPP_COMMENT_NL») (k11 : u11.type = T.«_CPP_COMMENT_NL») (k12 : u12.type = T.«_CPP_COMMENT_NL») (k13 : u13.type = T.«_CPP_COMMENT_NL») (k14 : u14.type = T.«_CPP_COMMENT_NL») :
    Y N.«decorator» (nd "decorator" [tk T.«__ANON_2» u1.text]) (u0 :: (u1 :: (u2 :: (u3 :: (u4 :: (u5 :: (u6 :: (u7 :: (u8 :: (u9 :: (u10 :: (u11 :: (u12 :: (u13 :: [u14])))))))))))))) n :=
  Y.node ⟨N.«decorator», [T.«AT», T.«__ANON_2», T.«LPAR», T.«_CPP_COMMENT_NL», T.«_CPP_COMMENT_NL», T.«RPAR», T.«_CPP_COMMENT_NL», T.«_CPP_COMMENT_NL», T.«_CPP_COMMENT_NL», T.«_CPP_COMMENT_NL», T.«_CPP_COMMENT_NL», T.«_CPP_COMMENT_NL», T.«_CPP_COMMENT_NL», T.«_CPP_COMMENT_NL», T.«_CPP_COMMENT_NL»], "decorator", false, [(1, false, 0)], 0⟩ (by decide +kernel) rfl (by decide) (free_plain (by decide) (by decide)) (cs := [tk T.«AT» u0.text, tk T.«__ANON_2» u1.text, tk T.«LPAR» u2.text, tk T.«_CPP_COMMENT_NL» u3.text, tk T.«_CPP_COMMENT_NL» u4.text, tk T.«RPAR» u5.text, tk T.«_CPP_COMMENT_NL» u6.text, tk T.«_CPP_COMMENT_NL» u7.text, tk T.«_CPP_COMMENT_NL» u8.text, tk T.«_CPP_COMMENT_NL» u9.text, tk T.«_CPP_COMMENT_NL» u10.text, tk T.«_CPP_COMMENT_NL» u11.text, tk T.«_CPP_COMMENT_NL» u12.text, tk T.«_CPP_COMMENT_NL» u13.text, tk T.«_CPP_COMMENT_NL» u14.text]) (by have : YL [T.«AT», T.«__ANON_2», T.«LPAR», T.«_CPP_COMMENT_NL», T.«_CPP_COMMENT_NL», T.«RPAR», T.«_CPP_COMMENT_NL», T.«_CPP_COMMENT_NL», T.«_CPP_COMMENT_NL», T.«_CPP_COMMENT_NL», T.«_CPP_COMMENT_NL», T.«_CPP_COMMENT_NL», T.«_CPP_COMMENT_NL», T.«_CPP_COMMENT_NL», T.«_CPP_COMMENT_NL»] [tk T.«AT» u0.text, tk T.«__ANON_2» u1.text, tk T.«LPAR» u2.text, tk T.«_CPP_COMMENT_NL» u3.text, tk T.«_CPP_COMMENT_NL» u4.text, tk T.«RPAR» u5.text, tk T.«_CPP_COMMENT_NL» u6.text, tk T.«_CPP_COMMENT_NL» u7.text, tk T.«_CPP_COMMENT_NL» u8.text, tk T.«_CPP_COMMENT_NL» u9.text, tk T.«_CPP_COMMENT_NL» u10.text, tk T.«_CPP_COMMENT_NL» u11.text, tk T.«_CPP_COMMENT_NL» u12.text, tk T.«_CPP_COMMENT_NL» u13.text, tk T.«_CPP_COMMENT_NL» u14.text] (u0 :: (u1 :: (u2 :: (u3 :: (u4 :: (u5 :: (u6 :: (u7 :: (u8 :: (u9 :: (u10 :: (u11 :: (u12 :: (u13 :: (u14 :: ([])))))))))))))))) n := (.tok k0 (by decide) (.tok k1 (by decide) (.tok k2 (by decide) (.tok k3 (by decide) (.tok k4 (by decide) (.tok k5 (by decide) (.tok k6 (by decide) (.tok k7 (by decide) (.tok k8 (by decide) (.tok k9 (by decide) (.tok k10 (by decide) (.tok k11 (by decide) (.tok k12 (by decide) (.tok k13 (by decide) (.tok k14 (by decide) .nil))))))))))))))); simpa only [List.append_assoc, List.nil_append, List.append_nil, List.cons_append, nextT_append, nextT_cons, nextT_nil] using this) (by simp only [keepKids', List.flatMap_cons, List.flatMap_nil, List.replicate_zero, List.replicate_succ, List.getElem?_cons_zero, List.getElem?_cons_succ, Bool.false_eq_true, if_true, if_false, List.append_nil, List.nil_append, List.cons_append, List.append_assoc, kidsOf_nd] <;> rfl)

theorem y_180 {n : Nat} {u0 : Tok} {u1 : Tok} {u2 : Tok} {u3 : Tok} {u4 : Tok} {u5 : Tok} (k0 : u0.type = T.«AT») (k1 : u1.type = T.«__ANON_2») (k2 : u2.type = T.«LPAR») (k3 : u3.type = T.«_CPP_COMMENT_NL») (k4 : u4.type = T.«RPAR») (k5 : u5.type = T.«_CPP_COMMENT_NL») :
    Y N.«decorator» (nd "decorator" [tk T.«__ANON_2» u1.text]) (u0 :: (u1 :: (u2 :: (u3 :: (u4 :: [u5]))))) n :=
  Y.node ⟨N.«decorator», [T.«AT», T.«__ANON_2», T.«LPAR», T.«_CPP_COMMENT_NL», T.«RPAR», T.«_CPP_COMMENT_NL»], "decorator", false, [(1, false, 0)], 0⟩ (by decide +kernel) rfl (by decide) (free_plain (by decide) (by decide)) (cs := [tk T.«AT» u0.text, tk T.«__ANON_2» u1.text, tk T.«LPAR» u2.text, tk T.«_CPP_COMMENT_NL» u3.text, tk T.«RPAR» u4.text, tk T.«_CPP_COMMENT_NL» u5.text]) (by have : YL [T.«AT», T.«__ANON_2», T.«LPAR», T.«_CPP_COMMENT_NL», T.«RPAR», T.«_CPP_COMMENT_NL»] [tk T.«AT» u0.text, tk T.«__ANON_2» u1.text, tk T.«LPAR» u2.text, tk T.«_CPP_COMMENT_NL» u3.text, tk T.«RPAR» u4.text, tk T.«_CPP_COMMENT_NL» u5.text] (u0 :: (u1 :: (u2 :: (u3 :: (u4 :: (u5 :: ([]))))))) n := (.tok k0 (by decide) (.tok k1 (by decide) (.tok k2 (by decide) (.tok k3 (by decide) (.tok k4 (by decide) (.tok k5 (by decide) .nil)))))); simpa only [List.append_assoc, List.nil_append, List.append_nil, List.cons_append, nextT_append, nextT_cons, nextT_nil] using this) (by simp only [keepKids', List.flatMap_cons, List.flatMap_nil, List.replicate_zero, List.replicate_succ, List.getElem?_cons_zero, List.getElem?_cons_succ, Bool.false_eq_true, if_true, if_false, List.append_nil, List.nil_append, List.cons_append, List.append_assoc, kidsOf_nd] <;> rfl)

theorem y_183 {n : Nat} {u0 : Tok} {u1 : Tok} {u2 : Tok} {u3 : Tok} {u4 : Tok} {u5 : Tok} {u6 : Tok} {u7 : Tok} {u8 : Tok} (k0 : u0.type = T.«AT») (k1 : u1.type = T.«__ANON_2») (k2 : u2.type = T.«LPAR») (k3 : u3.type = T.«_CPP_COMMENT_NL») (k4 : u4.type = T.«RPAR») (k5 : u5.type = T.«_CPP_COMMENT_NL») (k6 : u6.type = T.«_CPP_COMMENT_NL») (k7 : u7.type = T.«_CPP_COMMENT_NL») (k8 : u8.type = T.«_CPP_COMMENT_NL») :
    Y N.«decorator» (nd "decorator" [tk T.«__ANON_2» u1.text]) (u0 :: (u1 :: (u2 :: (u3 :: (u4 :: (u5 :: (u6 :: (u7 :: [u8])))))))) n :=
  Y.node ⟨N.«decorator», [T.«AT», T.«__ANON_2», T.«LPAR», T.«_CPP_COMMENT_NL», T.«RPAR», T.«_CPP_COMMENT_NL», T.«_CPP_COMMENT_NL», T.«_CPP_COMMENT_NL», T.«_CPP_COMMENT_NL»], "decorator", false, [(1, false, 0)], 0⟩ (by decide +kernel) rfl (by decide) (free_plain (by decide) (by decide)) (cs := [tk T.«AT» u0.text, tk T.«__ANON_2» u1.text, tk T.«LPAR» u2.text, tk T.«_CPP_COMMENT_NL» u3.text, tk T.«RPAR» u4.text, tk T.«_CPP_COMMENT_NL» u5.text, tk T.«_CPP_COMMENT_NL» u6.text, tk T.«_CPP_COMMENT_NL» u7.text, tk T.«_CPP_COMMENT_NL» u8.text]) (by have : YL [T.«AT», T.«__ANON_2», T.«LPAR», T.«_CPP_COMMENT_NL», T.«RPAR», T.«_CPP_COMMENT_NL», T.«_CPP_COMMENT_NL», T.«_CPP_COMMENT_NL», T.«_CPP_COMMENT_NL»] [tk T.«AT» u0.text, tk T.«__ANON_2» u1.text, tk T.«LPAR» u2.text, tk T.«_CPP_COMMENT_NL» u3.text, tk T.«RPAR» u4.text, tk T.«_CPP_COMMENT_NL» u5.text, tk T.«_CPP_COMMENT_NL» u6.text, tk T.«_CPP_COMMENT_NL» u7.text, tk T.«_CPP_COMMENT_NL» u8.text] (u0 :: (u1 :: (u2 :: (u3 :: (u4 :: (u5 :: (u6 :: (u7 :: (u8 :: ([])))))))))) n := (.tok k0 (by decide) (.tok k1 (by decide) (.tok k2 (by decide) (.tok k3 (by decide) (.tok k4 (by decide) (.tok k5 (by decide) (.tok k6 (by decide) (.tok k7 (by decide) (.tok k8 (by decide) .nil))))))))); simpa only [List.append_assoc, List.nil_append, List.append_nil, List.cons_append, nextT_append, nextT_cons, nextT_nil] using this) (by simp only [keepKids', List.flatMap_cons, List.flatMap_nil, List.replicate_zero, List.replicate_succ, List.getElem?_cons_zero, List.getElem?_cons_succ, Bool.false_eq_true, if_true, if_false, List.append_nil, List.nil_append, List.cons_append, List.append_assoc, kidsOf_nd] <;> rfl)

theorem y_186 {n : Nat} {u0 : Tok} {u1 : Tok} {u2 : Tok} {u3 : Tok} {u4 : Tok} {u5 : Tok} {u6 : Tok} {u7 : Tok} {u8 : Tok} {u9 : Tok} {u10 : Tok} {u11 : Tok} (k0 : u0.type = T.«AT») (k1 : u1.type = T.«__ANON_2») (k2 : u2.type = T.«LPAR») (k3 : u3.type = T.«_CPP_COMMENT_NL») (k4 : u4.type = T.«RPAR») (k5 : u5.type = T.«_CPP_COMMENT_NL») (k6 : u6.type = T.«_CPP_COMMENT_NL») (k7 : u7.type = T.«_CPP_COMMENT_NL») (k8 : u8.type = T.«_CPP_COMMENT_NL») (k9 : u9.type = T.«_CPP_COMMENT_NL») (k10 : u10.type = T.«_CPP_COMMENT_NL») (k11 : u11.type = T.«_CPP_COMMENT_NL») :
    Y N.«decorator» (nd "decorator" [tk T.«__ANON_2» u1.text]) (u0 :: (u1 :: (u2 :: (u3 :: (u4 :: (u5 :: (u6 :: (u7 :: (u8 :: (u9 :: (u10 :: [u11]))))))))))) n :=
  Y.node ⟨N.«decorator», [T.«AT», T.«__ANON_2», T.«LPAR», T.«_CPP_COMMENT_NL», T.«RPAR», T.«_CPP_COMMENT_NL», T.«_CPP_COMMENT_NL», T.«_CPP_COMMENT_NL», T.«_CPP_COMMENT_NL», T.«_CPP_COMMENT_NL», T.«_CPP_COMMENT_NL», T.«_CPP_COMMENT_NL»], "decorator", false, [(1, false, 0)], 0⟩ (by decide +kernel) rfl (by decide) (free_plain (by decide) (by decide)) (cs := [tk T.«AT» u0.text, tk T.«__ANON_2» u1.text, tk T.«LPAR» u2.text, tk T.«_CPP_COMMENT_NL» u3.text, tk T.«RPAR» u4.text, tk T.«_CPP_COMMENT_NL» u5.text, tk T.«_CPP_COMMENT_NL» u6.text, tk T.«_CPP_COMMENT_NL» u7.text, tk T.«_CPP_COMMENT_NL» u8.text, tk T.«_CPP_COMMENT_NL» u9.text, tk T.«_CPP_COMMENT_NL» u10.text, tk T.«_CPP_COMMENT_NL» u11.text]) (by have : YL [T.«AT», T.«__ANON_2», T.«LPAR», T.«_CPP_COMMENT_NL», T.«RPAR», T.«_CPP_COMMENT_NL», T.«_CPP_COMMENT_NL», T.«_CPP_COMMENT_NL», T.«_CPP_COMMENT_NL», T.«_CPP_COMMENT_NL», T.«_CPP_COMMENT_NL», T.«_CPP_COMMENT_NL»] [tk T.«AT» u0.text, tk T.«__ANON_2» u1.text, tk T.«LPAR» u2.text, tk T.«_CPP_COMMENT_NL» u3.text, tk T.«RPAR» u4.text, tk T.«_CPP_COMMENT_NL» u5.text, tk T.«_CPP_COMMENT_NL» u6.text, tk T.«_CPP_COMMENT_NL» u7.text, tk T.«_CPP_COMMENT_NL» u8.text, tk T.«_CPP_COMMENT_NL» u9.text, tk T.«_CPP_COMMENT_NL» u10.text, tk T.«_CPP_COMMENT_NL» u11.text] (u0 :: (u1 :: (u2 :: (u3 :: (u4 :: (u5 :: (u6 :: (u7 :: (u8 :: (u9 :: (u10 :: (u11 :: ([]))))))))))))) n := (.tok k0 (by decide) (.tok k1 (by decide) (.tok k2 (by decide) (.tok k3 (by decide) (.tok k4 (by decide) (.tok k5 (by decide) (.tok k6 (by decide) (.tok k7 (by decide) (.tok k8 (by decide) (.tok k9 (by decide) (.tok k10 (by decide) (.tok k11 (by decide) .nil)))))))))))); simpa only [List.append_assoc, List.nil_append, List.append_nil, List.cons_append, nextT_append, nextT_cons, nextT_nil] using this) (by simp only [keepKids', List.flatMap_cons, List.flatMap_nil, List.replicate_zero, List.replicate_succ, List.getElem?_cons_zero, List.getElem?_cons_succ, Bool.false_eq_true, if_true, if_false, List.append_nil, List.nil_append, List.cons_append, List.append_assoc, kidsOf_nd] <;> rfl)

theorem y_189 {n : Nat} {u0 : Tok} {u1 : Tok} {u2 : Tok} {u3 : Tok} {u4 : Tok} {u5 : Tok} {u6 : Tok} {u7 : Tok} {u8 : Tok} {u9 : Tok} {u10 : Tok} {u11 : Tok} {u12 : Tok} {u13 : Tok} {u14 : Tok} (k0 : u0.type = T.«AT») (k1 : u1.type = T.«__ANON_2») (k2 : u2.type = T.«LPAR») (k3 : u3.type = T.«_CPP_COMMENT_NL») (k4 : u4.type = T.«RPAR») (k5 : u5.type = T.«_CPP_COMMENT_NL») (k6 : u6.type = T.«_CPP_COMMENT_NL») (k7 : u7.type = T.«_CPP_COMMENT_NL») (k8 : u8.type = T.«_CPP_COMMENT_NL») (k9 : u9.type = T.«_CPP_COMMENT_NL») (k10 : u10.type = T.«_CPP_COMMENT_NL») (k11 : u11.type = T.«_CPP_COMMENT_NL») (k12 : u12.type = T.«_CPP_COMMENT_NL») (k13 : u13.type = T.«_CPP_COMMENT_NL») (k14 : u14.type = T.«_CPP_COMMENT_NL») :
    Y N.«decorator» (nd "decorator" [tk T.«__ANON_2» u1.text]) (u0 :: (u1 :: (u2 :: (u3 :: (u4 :: (u5 :: (u6 :: (u7 :: (u8 :: (u9 :: (u10 :: (u11 :: (u12 :: (u13 :: [u14])))))))))))))) n :=
  Y.node ⟨N.«decorator», [T.«AT», T.«__ANON_2», T.«LPAR», T.«_CPP_COMMENT_NL», T.«RPAR», T.«_CPP_COMMENT_NL», T.«_CPP_COMMENT_NL», T.«_CPP_COMMENT_NL», T.«_CPP_COMMENT_NL», T.«_CPP_COMMENT_NL», T.«_CPP_COMMENT_NL», T.«_CPP_COMMENT_NL», T.«_CPP_COMMENT_NL», T.«_CPP_COMMENT_NL», T.«_CPP_COMMENT_NL»], "decorator", false, [(1, false, 0)], 0⟩ (by decide +kernel) rfl (by decide) (free_plain (by decide) (by decide)) (cs := [tk T.«AT» u0.text, tk T.«__ANON_2» u1.text, tk T.«LPAR» u2.text, tk T.«_CPP_COMMENT_NL» u3.text, tk T.«RPAR» u4.text, tk T.«_CPP_COMMENT_NL» u5.text, tk T.«_CPP_COMMENT_NL» u6.text, tk T.«_CPP_COMMENT_NL» u7.text, tk T.«_CPP_COMMENT_NL» u8.text, tk T.«_CPP_COMMENT_NL» u9.text, tk T.«_CPP_COMMENT_NL» u10.text, tk T.«_CPP_COMMENT_NL» u11.text, tk T.«_CPP_COMMENT_NL» u12.text, tk T.«_CPP_COMMENT_NL» u13.text, tk T.«_CPP_COMMENT_NL» u14.text]) (by have : YL [T.«AT», T.«__ANON_2», T.«LPAR», T.«_CPP_COMMENT_NL», T.«RPAR», T.«_CPP_COMMENT_NL», T.«_CPP_COMMENT_NL», T.«_CPP_COMMENT_NL», T.«_CPP_COMMENT_NL», T.«_CPP_COMMENT_NL», T.«_CPP_COMMENT_NL», T.«_CPP_COMMENT_NL», T.«_CPP_COMMENT_NL», T.«_CPP_COMMENT_NL», T.«_CPP_COMMENT_NL»] [tk T.«AT» u0.text, tk T.«__ANON_2» u1.text, tk T.«LPAR» u2.text, tk T.«_CPP_COMMENT_NL» u3.text, tk T.«RPAR» u4.text, tk T.«_CPP_COMMENT_NL» u5.text, tk T.«_CPP_COMMENT_NL» u6.text, tk T.«_CPP_COMMENT_NL» u7.text, tk T.«_CPP_COMMENT_NL» u8.text, tk T.«_CPP_COMMENT_NL» u9.text, tk T.«_CPP_COMMENT_NL» u10.text, tk T.«_CPP_COMMENT_NL» u11.text, tk T.«_CPP_COMMENT_NL» u12.text, tk T.«_CPP_COMMENT_NL» u13.text, tk T.«_CPP_COMMENT_NL» u14.text] (u0 :: (u1 :: (u2 :: (u3 :: (u4 :: (u5 :: (u6 :: (u7 :: (u8 :: (u9 :: (u10 :: (u11 :: (u12 :: (u13 :: (u14 :: ([])))))))))))))))) n := (.tok k0 (by decide) (.tok k1 (by decide) (.tok k2 (by decide) (.tok k3 (by decide) (.tok k4 (by decide) (.tok k5 (by decide) (.tok k6 (by decide) (.tok k7 (by decide) (.tok k8 (by decide) (.tok k9 (by decide) (.tok k10 (by decide) (.tok k11 (by decide) (.tok k12 (by decide) (.tok k13 (by decide) (.tok k14 (by decide) .nil))))))))))))))); simpa only [List.append_assoc, List.nil_append, List.append_nil, List.cons_append, nextT_append, nextT_cons, nextT_nil] using this) (by simp only [keepKids', List.flatMap_cons, List.flatMap_nil, List.replicate_zero, List.replicate_succ, List.getElem?_cons_zero, List.getElem?_cons_succ, Bool.false_eq_true, if_true, if_false, List.append_nil, List.nil_append, List.cons_append, List.append_assoc, kidsOf_nd] <;> rfl)

theorem y_192 {n : Nat} {u0 : Tok} {u1 : Tok} {u2 : Tok} {c3 : Tree} {w3 : List Tok} {u4 : Tok} {u5 : Tok} {u6 : Tok} {u7 : Tok} (k0 : u0.type = T.«AT») (k1 : u1.type = T.«__ANON_2») (k2 : u2.type = T.«LPAR») (h3 : Y N.«value_brackets» c3 w3 u4.type) (k4 : u4.type = T.«_CPP_COMMENT_NL») (k5 : u5.type = T.«RPAR») (k6 : u6.type = T.«_CPP_COMMENT_NL») (k7 : u7.type = T.«_CPP_COMMENT_NL») :
    Y N.«decorator» (nd "decorator" (tk T.«__ANON_2» u1.text :: [c3])) (u0 :: (u1 :: (u2 :: (w3 ++ (u4 :: (u5 :: (u6 :: [u7]))))))) n :=
  Y.node ⟨N.«decorator», [T.«AT», T.«__ANON_2», T.«LPAR», N.«value_brackets», T.«_CPP_COMMENT_NL», T.«RPAR», T.«_CPP_COMMENT_NL», T.«_CPP_COMMENT_NL»], "decorator", false, [(1, false, 0), (3, false, 0)], 0⟩ (by decide +kernel) rfl (by decide) (free_plain (by decide) (by decide)) (cs := [tk T.«AT» u0.text, tk T.«__ANON_2» u1.text, tk T.«LPAR» u2.text, c3, tk T.«_CPP_COMMENT_NL» u4.text, tk T.«RPAR» u5.text, tk T.«_CPP_COMMENT_NL» u6.text, tk T.«_CPP_COMMENT_NL» u7.text]) (by have : YL [T.«AT», T.«__ANON_2», T.«LPAR», N.«value_brackets», T.«_CPP_COMMENT_NL», T.«RPAR», T.«_CPP_COMMENT_NL», T.«_CPP_COMMENT_NL»] [tk T.«AT» u0.text, tk T.«__ANON_2» u1.text, tk T.«LPAR» u2.text, c3, tk T.«_CPP_COMMENT_NL» u4.text, tk T.«RPAR» u5.text, tk T.«_CPP_COMMENT_NL» u6.text, tk T.«_CPP_COMMENT_NL» u7.text] (u0 :: (u1 :: (u2 :: (w3 ++ (u4 :: (u5 :: (u6 :: (u7 :: ([]))))))))) n := (.tok k0 (by decide) (.tok k1 (by decide) (.tok k2 (by decide) (.nt (by simpa only [List.append_assoc, List.nil_append, List.append_nil, List.cons_append, nextT_append, nextT_cons, nextT_nil] using h3) (.tok k4 (by decide) (.tok k5 (by decide) (.tok k6 (by decide) (.tok k7 (by decide) .nil)))) (fun h h' => by first | exact absurd h (by decide) | exact absurd h' (by decide)))))); simpa only [List.append_assoc, List.nil_append, List.append_nil, List.cons_append, nextT_append, nextT_cons, nextT_nil] using this) (by simp only [keepKids', List.flatMap_cons, List.flatMap_nil, List.replicate_zero, List.replicate_succ, List.getElem?_cons_zero, List.getElem?_cons_succ, Bool.false_eq_true, if_true, if_false, List.append_nil, List.nil_append, List.cons_append, List.append_assoc, kidsOf_nd] <;> rfl)

theorem y_195 {n : Nat} {u0 : Tok} {u1 : Tok} {u2 : Tok} {c3 : Tree} {w3 : List Tok} {u4 : Tok} {u5 : Tok} {u6 : Tok} {u7 : Tok} {u8 : Tok} {u9 : Tok} {u10 : Tok} (k0 : u0.type = T.«AT») (k1 : u1.type = T.«__ANON_2») (k2 : u2.type = T.«LPAR») (h3 : Y N.«value_brackets» c3 w3 u4.type) (k4 : u4.type = T.«_CPP_COMMENT_NL») (k5 : u5.type = T.«RPAR») (k6 : u6.type = T.«_CPP_COMMENT_NL») (k7 : u7.type = T.«_CPP_COMMENT_NL») (k8 : u8.type = T.«_CPP_COMMENT_NL») (k9 : u9.type = T.«_CPP_COMMENT_NL») (k10 : u10.type = T.«_CPP_COMMENT_NL») :
    Y N.«decorator» (nd "decorator" (tk T.«__ANON_2» u1.text :: [c3])) (u0 :: (u1 :: (u2 :: (w3 ++ (u4 :: (u5 :: (u6 :: (u7 :: (u8 :: (u9 :: [u10])))))))))) n :=
  Y.node ⟨N.«decorator», [T.«AT», T.«__ANON_2», T.«LPAR», N.«value_brackets», T.«_CPP_COMMENT_NL», T.«RPAR», T.«_CPP_COMMENT_NL», T.«_CPP_COMMENT_NL», T.«_CPP_COMMENT_NL», T.«_CPP_COMMENT_NL», T.«_CPP_COMMENT_NL»], "decorator", false, [(1, false, 0), (3, false, 0)], 0⟩ (by decide +kernel) rfl (by decide) (free_plain (by decide) (by decide)) (cs := [tk T.«AT» u0.text, tk T.«__ANON_2» u1.text, tk T.«LPAR» u2.text, c3, tk T.«_CPP_COMMENT_NL» u4.text, tk T.«RPAR» u5.text, tk T.«_CPP_COMMENT_NL» u6.text, tk T.«_CPP_COMMENT_NL» u7.text, tk T.«_CPP_COMMENT_NL» u8.text, tk T.«_CPP_COMMENT_NL» u9.text, tk T.«_CPP_COMMENT_NL» u10.text]) (by have : YL [T.«AT», T.«__ANON_2», T.«LPAR», N.«value_brackets», T.«_CPP_COMMENT_NL», T.«RPAR», T.«_CPP_COMMENT_NL», T.«_CPP_COMMENT_NL», T.«_CPP_COMMENT_NL», T.«_CPP_COMMENT_NL», T.«_CPP_COMMENT_NL»] [tk T.«AT» u0.text, tk T.«__ANON_2» u1.text, tk T.«LPAR» u2.text, c3, tk T.«_CPP_COMMENT_NL» u4.text, tk T.«RPAR» u5.text, tk T.«_CPP_COMMENT_NL» u6.text, tk T.«_CPP_COMMENT_NL» u7.text, tk T.«_CPP_COMMENT_NL» u8.text, tk T.«_CPP_COMMENT_NL» u9.text, tk T.«_CPP_COMMENT_NL» u10.text] (u0 :: (u1 :: (u2 :: (w3 ++ (u4 :: (u5 :: (u6 :: (u7 :: (u8 :: (u9 :: (u10 :: ([])))))))))))) n := (.tok k0 (by decide) (.tok k1 (by decide) (.tok k2 (by decide) (.nt (by simpa only [List.append_assoc, List.nil_append, List.append_nil, List.cons_append, nextT_append, nextT_cons, nextT_nil] using h3) (.tok k4 (by decide) (.tok k5 (by decide) (.tok k6 (by decide) (.tok k7 (by decide) (.tok k8 (by decide) (.tok k9 (by decide) (.tok k10 (by decide) .nil))))))) (fun h h' => by first | exact absurd h (by decide) | exact absurd h' (by decide)))))); simpa only [List.append_assoc, List.nil_append, List.append_nil, List.cons_append, nextT_append, nextT_cons, nextT_nil] using this) (by simp only [keepKids', List.flatMap_cons, List.flatMap_nil, List.replicate_zero, List.replicate_succ, List.getElem?_cons_zero, List.getElem?_cons_succ, Bool.false_eq_true, if_true, if_false, List.append_nil, List.nil_append, List.cons_append, List.append_assoc, kidsOf_nd] <;> rfl)

theorem y_198 {n : Nat} {u0 : Tok} {u1 : Tok} {u2 : Tok} {c3 : Tree} {w3 : List Tok} {u4 : Tok} {u5 : Tok} {u6 : Tok} {u7 : Tok} {u8 : Tok} {u9 : Tok} {u10 : Tok} {u11 : Tok} {u12 : Tok} {u13 : Tok} (k0 : u0.type = T.«AT») (k1 : u1.type = T.«__ANON_2») (k2 : u2.type = T.«LPAR») (h3 : Y N.«value_brackets» c3 w3 u4.type) (k4 : u4.type = T.«_CPP_COMMENT_NL») (k5 : u5.type = T.«RPAR») (k6 : u6.type = T.«_CPP_COMMENT_NL») (k7 : u7.type = T.«_CPP_COMMENT_NL») (k8 : u8.type = T.«_CPP_COMMENT_NL») (k9 : u9.type = T.«_CPP_COMMENT_NL») (k10 : u10.type = T.«_CPP_COMMENT_NL») (k11 : u11.type = T.«_CPP_COMMENT_NL») (k12 : u12.type = T.«_CPP_COMMENT_NL») (k13 : u13.type = T.«_CPP_COMMENT_NL») :
    Y N.«decorator» (nd "decorator" (tk T.«__ANON_2» u1.text :: [c3])) (u0 :: (u1 :: (u2 :: (w3 ++ (u4 :: (u5 :: (u6 :: (u7 :: (u8 :: (u9 :: (u10 :: (u11 :: (u12 :: [u13]))))))))))))) n :=
  Y.node ⟨N.«decorator», [T.«AT», T.«__ANON_2», T.«LPAR», N.«value_brackets», T.«_CPP_COMMENT_NL», T.«RPAR», T.«_CPP_COMMENT_NL», T.«_CPP_COMMENT_NL», T.«_CPP_COMMENT_NL», T.«_CPP_COMMENT_NL», T.«_CPP_COMMENT_NL», T.«_CPP_COMMENT_NL», T.«_CPP_COMMENT_NL», T.«_CPP_COMMENT_NL»], "decorator", false, [(1, false, 0), (3, false, 0)], 0⟩ (by decide +kernel) rfl (by decide) (free_plain (by decide) (by decide)) (cs := [tk T.«AT» u0.text, tk T.«__ANON_2» u1.text, tk T.«LPAR» u2.text, c3, tk T.«_CPP_COMMENT_NL» u4.text, tk T.«RPAR» u5.text, tk T.«_CPP_COMMENT_NL» u6.text, tk T.«_CPP_COMMENT_NL» u7.text, tk T.«_CPP_COMMENT_NL» u8.text, tk T.«_CPP_COMMENT_NL» u9.text, tk T.«_CPP_COMMENT_NL» u10.text, tk T.«_CPP_COMMENT_NL» u11.text, tk T.«_CPP_COMMENT_NL» u12.text, tk T.«_CPP_COMMENT_NL» u13.text]) (by have : YL [T.«AT», T.«__ANON_2», T.«LPAR», N.«value_brackets», T.«_CPP_COMMENT_NL», T.«RPAR», T.«_CPP_COMMENT_NL», T.«_CPP_COMMENT_NL», T.«_CPP_COMMENT_NL», T.«_CPP_COMMENT_NL», T.«_CPP_COMMENT_NL», T.«_CPP_COMMENT_NL», T.«_CPP_COMMENT_NL», T.«_CPP_COMMENT_NL»] [tk T.«AT» u0.text, tk T.«__ANON_2» u1.text, tk T.«LPAR» u2.text, c3, tk T.«_CPP_COMMENT_NL» u4.text, tk T.«RPAR» u5.text, tk T.«_CPP_COMMENT_NL» u6.text, tk T.«_CPP_COMMENT_NL» u7.text, tk T.«_CPP_COMMENT_NL» u8.text, tk T.«_CPP_COMMENT_NL» u9.text, tk T.«_CPP_COMMENT_NL» u10.text, tk T.«_CPP_COMMENT_NL» u11.text, tk T.«_CPP_COMMENT_NL» u12.text, tk T.«_CPP_COMMENT_NL» u13.text] (u0 :: (u1 :: (u2 :: (w3 ++ (u4 :: (u5 :: (u6 :: (u7 :: (u8 :: (u9 :: (u10 :: (u11 :: (u12 :: (u13 :: ([]))))))))))))))) n := (.tok k0 (by decide) (.tok k1 (by decide) (.tok k2 (by decide) (.nt (by simpa only [List.append_assoc, List.nil_append, List.append_nil, List.cons_append, nextT_append, nextT_cons, nextT_nil] using h3) (.tok k4 (by decide) (.tok k5 (by decide) (.tok k6 (by decide) (.tok k7 (by decide) (.tok k8 (by decide) (.tok k9 (by decide) (.tok k10 (by decide) (.tok k11 (by decide) (.tok k12 (by decide) (.tok k13 (by decide) .nil)))))))))) (fun h h' => by first | exact absurd h (by decide) | exact absurd h' (by decide)))))); simpa only [List.append_assoc, List.nil_append, List.append_nil, List.cons_append, nextT_append, nextT_cons, nextT_nil] using this) (by simp only [keepKids', List.flatMap_cons, List.flatMap_nil, List.replicate_zero, List.replicate_succ, List.getElem?_cons_zero, List.getElem?_cons_succ, Bool.false_eq_true, if_true, if_false, List.append_nil, List.nil_append, List.cons_append, List.append_assoc, kidsOf_nd] <;> rfl)

theorem y_201 {n : Nat} {u0 : Tok} {u1 : Tok} {u2 : Tok} {c3 : Tree} {w3 : List Tok} {u4 : Tok} (k0 : u0.type = T.«AT») (k1 : u1.type = T.«__ANON_2») (k2 : u2.type = T.«LPAR») (h3 : Y N.«value_brackets» c3 w3 u4.type) (k4 : u4.type = T.«RPAR») :
    Y N.«decorator» (nd "decorator" (tk T.«__ANON_2» u1.text :: [c3])) (u0 :: (u1 :: (u2 :: (w3 ++ [u4])))) n :=
  Y.node ⟨N.«decorator», [T.«AT», T.«__ANON_2», T.«LPAR», N.«value_brackets», T.«RPAR»], "decorator", false, [(1, false, 0), (3, false, 0)], 0⟩ (by decide +kernel) rfl (by decide) (free_plain (by decide) (by decide)) (cs := [tk T.«AT» u0.text, tk T.«__ANON_2» u1.text, tk T.«LPAR» u2.text, c3, tk T.«RPAR» u4.text]) (by have : YL [T.«AT», T.«__ANON_2», T.«LPAR», N.«value_brackets», T.«RPAR»] [tk T.«AT» u0.text, tk T.«__ANON_2» u1.text, tk T.«LPAR» u2.text, c3, tk T.«RPAR» u4.text] (u0 :: (u1 :: (u2 :: (w3 ++ (u4 :: ([])))))) n := (.tok k0 (by decide) (.tok k1 (by decide) (.tok k2 (by decide) (.nt (by simpa only [List.append_assoc, List.nil_append, List.append_nil, List.cons_append, nextT_append, nextT_cons, nextT_nil] using h3) (.tok k4 (by decide) .nil) (fun h h' => by first | exact absurd h (by decide) | exact absurd h' (by decide)))))); simpa only [List.append_assoc, List.nil_append, List.append_nil, List.cons_append, nextT_append, nextT_cons, nextT_nil] using this) (by simp only [keepKids', List.flatMap_cons, List.flatMap_nil, List.replicate_zero, List.replicate_succ, List.getElem?_cons_zero, List.getElem?_cons_succ, Bool.false_eq_true, if_true, if_false, List.append_nil, List.nil_append, List.cons_append, List.append_assoc, kidsOf_nd] <;> rfl)

theorem y_204 {n : Nat} {u0 : Tok} {u1 : Tok} {u2 : Tok} {c3 : Tree} {w3 : List Tok} {u4 : Tok} {u5 : Tok} {u6 : Tok} {u7 : Tok} (k0 : u0.type = T.«AT») (k1 : u1.type = T.«__ANON_2») (k2 : u2.type = T.«LPAR») (h3 : Y N.«value_brackets» c3 w3 u4.type) (k4 : u4.type = T.«RPAR») (k5 : u5.type = T.«_CPP_COMMENT_NL») (k6 : u6.type = T.«_CPP_COMMENT_NL») (k7 : u7.type = T.«_CPP_COMMENT_NL») :
    Y N.«decorator» (nd "decorator" (tk T.«__ANON_2» u1.text :: [c3])) (u0 :: (u1 :: (u2 :: (w3 ++ (u4 :: (u5 :: (u6 :: [u7]))))))) n :=
  Y.node ⟨N.«decorator», [T.«AT», T.«__ANON_2», T.«LPAR», N.«value_brackets», T.«RPAR», T.«_CPP_COMMENT_NL», T.«_CPP_COMMENT_NL», T.«_CPP_COMMENT_NL»], "decorator", false, [(1, false, 0), (3, false, 0)], 0⟩ (by decide +kernel) rfl (by decide) (free_plain (by decide) (by decide)) (cs := [tk T.«AT» u0.text, tk T.«__ANON_2» u1.text, tk T.«LPAR» u2.text, c3, tk T.«RPAR» u4.text, tk T.«_CPP_COMMENT_NL» u5.text, tk T.«_CPP_COMMENT_NL» u6.text, tk T.«_CPP_COMMENT_NL» u7.text]) (by have : YL [T.«AT», T.«__ANON_2», T.«LPAR», N.«value_brackets», T.«RPAR», T.«_CPP_COMMENT_NL», T.«_CPP_COMMENT_NL», T.«_CPP_COMMENT_NL»] [tk T.«AT» u0.text, tk T.«__ANON_2» u1.text, tk T.«LPAR» u2.text, c3, tk T.«RPAR» u4.text, tk T.«_CPP_COMMENT_NL» u5.text, tk T.«_CPP_COMMENT_NL» u6.text, tk T.«_CPP_COMMENT_NL» u7.text] (u0 :: (u1 :: (u2 :: (w3 ++ (u4 :: (u5 :: (u6 :: (u7 :: ([]))))))))) n := (.tok k0 (by decide) (.tok k1 (by decide) (.tok k2 (by decide) (.nt (by simpa only [List.append_assoc, List.nil_append, List.append_nil, List.cons_append, nextT_append, nextT_cons, nextT_nil] using h3) (.tok k4 (by decide) (.tok k5 (by decide) (.tok k6 (by decide) (.tok k7 (by decide) .nil)))) (fun h h' => by first | exact absurd h (by decide) | exact absurd h' (by decide)))))); simpa only [List.append_assoc, List.nil_append, List.append_nil, List.cons_append, nextT_append, nextT_cons, nextT_nil] using this) (by simp only [keepKids', List.flatMap_cons, List.flatMap_nil, List.replicate_zero, List.replicate_succ, List.getElem?_cons_zero, List.getElem?_cons_succ, Bool.false_eq_true, if_true, if_false, List.append_nil, List.nil_append, List.cons_append, List.append_assoc, kidsOf_nd] <;> rfl)

theorem y_207 {n : Nat} {u0 : Tok} {u1 : Tok} {u2 : Tok} {c3 : Tree} {w3 : List Tok} {u4 : Tok} {u5 : Tok} {u6 : Tok} {u7 : Tok} {u8 : Tok} {u9 : Tok} {u10 : Tok} (k0 : u0.type = T.«AT») (k1 : u1.type = T.«__ANON_2») (k2 : u2.type = T.«LPAR») (h3 : Y N.«value_brackets» c3 w3 u4.type) (k4 : u4.type = T.«RPAR») (k5 : u5.type = T.«_CPP_COMMENT_NL») (k6 : u6.type = T.«_CPP_COMMENT_NL») (k7 : u7.type = T.«_CPP_COMMENT_NL») (k8 : u8.type = T.«_CPP_COMMENT_NL») (k9 : u9.type = T.«_CPP_COMMENT_NL») (k10 : u10.type = T.«_CPP_COMMENT_NL») :
    Y N.«decorator» (nd "decorator" (tk T.«__ANON_2» u1.text :: [c3])) (u0 :: (u1 :: (u2 :: (w3 ++ (u4 :: (u5 :: (u6 :: (u7 :: (u8 :: (u9 :: [u10])))))))))) n :=
  Y.node ⟨N.«decorator», [T.«AT», T.«__ANON_2», T.«LPAR», N.«value_brackets», T.«RPAR», T.«_CPP_COMMENT_NL», T.«_CPP_COMMENT_NL», T.«_CPP_COMMENT_NL», T.«_CPP_COMMENT_NL», T.«_CPP_COMMENT_NL», T.«_CPP_COMMENT_NL»], "decorator", false, [(1, false, 0), (3, false, 0)], 0⟩ (by decide +kernel) rfl (by decide) (free_plain (by decide) (by decide)) (cs := [tk T.«AT» u0.text, tk T.«__ANON_2» u1.text, tk T.«LPAR» u2.text, c3, tk T.«RPAR» u4.text, tk T.«_CPP_COMMENT_NL» u5.text, tk T.«_CPP_COMMENT_NL» u6.text, tk T.«_CPP_COMMENT_NL» u7.text, tk T.«_CPP_COMMENT_NL» u8.text, tk T.«_CPP_COMMENT_NL» u9.text, tk T.«_CPP_COMMENT_NL» u10.text]) (by have : YL [T.«AT», T.«__ANON_2», T.«LPAR», N.«value_brackets», T.«RPAR», T.«_CPP_COMMENT_NL», T.«_CPP_COMMENT_NL», T.«_CPP_COMMENT_NL», T.«_CPP_COMMENT_NL», T.«_CPP_COMMENT_NL», T.«_CPP_COMMENT_NL»] [tk T.«AT» u0.text, tk T.«__ANON_2» u1.text, tk T.«LPAR» u2.text, c3, tk T.«RPAR» u4.text, tk T.«_CPP_COMMENT_NL» u5.text, tk T.«_CPP_COMMENT_NL» u6.text, tk T.«_CPP_COMMENT_NL» u7.text, tk T.«_CPP_COMMENT_NL» u8.text, tk T.«_CPP_COMMENT_NL» u9.text, tk T.«_CPP_COMMENT_NL» u10.text] (u0 :: (u1 :: (u2 :: (w3 ++ (u4 :: (u5 :: (u6 :: (u7 :: (u8 :: (u9 :: (u10 :: ([])))))))))))) n := (.tok k0 (by decide) (.tok k1 (by decide) (.tok k2 (by decide) (.nt (by simpa only [List.append_assoc, List.nil_append, List.append_nil, List.cons_append, nextT_append, nextT_cons, nextT_nil] using h3) (.tok k4 (by decide) (.tok k5 (by decide) (.tok k6 (by decide) (.tok k7 (by decide) (.tok k8 (by decide) (.tok k9 (by decide) (.tok k10 (by decide) .nil))))))) (fun h h' => by first | exact absurd h (by decide) | exact absurd h' (by decide)))))); simpa only [List.append_assoc, List.nil_append, List.append_nil, List.cons_append, nextT_append, nextT_cons, nextT_nil] using this) (by simp only [keepKids', List.flatMap_cons, List.flatMap_nil, List.replicate_zero, List.replicate_succ, List.getElem?_cons_zero, List.getElem?_cons_succ, Bool.false_eq_true, if_true, if_false, List.append_nil, List.nil_append, List.cons_append, List.append_assoc, kidsOf_nd] <;> rfl)

theorem y_210 {n : Nat} {u0 : Tok} {u1 : Tok} {u2 : Tok} {c3 : Tree} {w3 : List Tok} {u4 : Tok} {u5 : Tok} {u6 : Tok} {u7 : Tok} {u8 : Tok} {u9 : Tok} {u10 : Tok} {u11 : Tok} {u12 : Tok} {u13 : Tok} (k0 : u0.type = T.«AT») (k1 : u1.type = T.«__ANON_2») (k2 : u2.type = T.«LPAR») (h3 : Y N.«value_brackets» c3 w3 u4.type) (k4 : u4.type = T.«RPAR») (k5 : u5.type = T.«_CPP_COMMENT_NL») (k6 : u6.type = T.«_CPP_COMMENT_NL») (k7 : u7.type = T.«_CPP_COMMENT_NL») (k8 : u8.type = T.«_CPP_COMMENT_NL») (k9 : u9.type = T.«_CPP_COMMENT_NL») (k10 : u10.type = T.«_CPP_COMMENT_NL») (k11 : u11.type = T.«_CPP_COMMENT_NL») (k12 : u12.type = T.«_CPP_COMMENT_NL») (k13 : u13.type = T.«_CPP_COMMENT_NL») :
    Y N.«decorator» (nd "decorator" (tk T.«__ANON_2» u1.text :: [c3])) (u0 :: (u1 :: (u2 :: (w3 ++ (u4 :: (u5 :: (u6 :: (u7 :: (u8 :: (u9 :: (u10 :: (u11 :: (u12 :: [u13]))))))))))))) n :=
  Y.node ⟨N.«decorator», [T.«AT», T.«__ANON_2», T.«LPAR», N.«value_brackets», T.«RPAR», T.«_CPP_COMMENT_NL», T.«_CPP_COMMENT_NL», T.«_CPP_COMMENT_NL», T.«_CPP_COMMENT_NL», T.«_CPP_COMMENT_NL», T.«_CPP_COMMENT_NL», T.«_CPP_COMMENT_NL», T.«_CPP_COMMENT_NL», T.«_CPP_COMMENT_NL»], "decorator", false, [(1, false, 0), (3, false, 0)], 0⟩ (by decide +kernel) rfl (by decide) (free_plain (by decide) (by decide)) (cs := [tk T.«AT» u0.text, tk T.«__ANON_2» u1.text, tk T.«LPAR» u2.text, c3, tk T.«RPAR» u4.text, tk T.«_CPP_COMMENT_NL» u5.text, tk T.«_CPP_COMMENT_NL» u6.text, tk T.«_CPP_COMMENT_NL» u7.text, tk T.«_CPP_COMMENT_NL» u8.text, tk T.«_CPP_COMMENT_NL» u9.text, tk T.«_CPP_COMMENT_NL» u10.text, tk T.«_CPP_COMMENT_NL» u11.text, tk T.«_CPP_COMMENT_NL» u12.text, tk T.«_CPP_COMMENT_NL» u13.text]) (by have : YL [T.«AT», T.«__ANON_2», T.«LPAR», N.«value_brackets», T.«RPAR», T.«_CPP_COMMENT_NL», T.«_CPP_COMMENT_NL», T.«_CPP_COMMENT_NL», T.«_CPP_COMMENT_NL», T.«_CPP_COMMENT_NL», T.«_CPP_COMMENT_NL», T.«_CPP_COMMENT_NL», T.«_CPP_COMMENT_NL», T.«_CPP_COMMENT_NL»] [tk T.«AT» u0.text, tk T.«__ANON_2» u1.text, tk T.«LPAR» u2.text, c3, tk T.«RPAR» u4.text, tk T.«_CPP_COMMENT_NL» u5.text, tk T.«_CPP_COMMENT_NL» u6.text, tk T.«_CPP_COMMENT_NL» u7.text, tk T.«_CPP_COMMENT_NL» u8.text, tk T.«_CPP_COMMENT_NL» u9.text, tk T.«_CPP_COMMENT_NL» u10.text, tk T.«_CPP_COMMENT_NL» u11.text, tk T.«_CPP_COMMENT_NL» u12.text, tk T.«_CPP_COMMENT_NL» u13.text] (u0 :: (u1 :: (u2 :: (w3 ++ (u4 :: (u5 :: (u6 :: (u7 :: (u8 :: (u9 :: (u10 :: (u11 :: (u12 :: (u13 :: ([]))))))))))))))) n := (.tok k0 (by decide) (.tok k1 (by decide) (.tok k2 (by decide) (.nt (by simpa only [List.append_assoc, List.nil_append, List.append_nil, List.cons_append, nextT_append, nextT_cons, nextT_nil] using h3) (.tok k4 (by decide) (.tok k5 (by decide) (.tok k6 (by decide) (.tok k7 (by decide) (.tok k8 (by decide) (.tok k9 (by decide) (.tok k10 (by decide) (.tok k11 (by decide) (.tok k12 (by decide) (.tok k13 (by decide) .nil)))))))))) (fun h h' => by first | exact absurd h (by decide) | exact absurd h' (by decide)))))); simpa only [List.append_assoc, List.nil_append, List.append_nil, List.cons_append, nextT_append, nextT_cons, nextT_nil] using this) (by simp only [keepKids', List.flatMap_cons, List.flatMap_nil, List.replicate_zero, List.replicate_succ, List.getElem?_cons_zero, List.getElem?_cons_succ, Bool.false_eq_true, if_true, if_false, List.append_nil, List.nil_append, List.cons_append, List.append_assoc, kidsOf_nd] <;> rfl)

theorem y_213 {n : Nat} {u0 : Tok} {u1 : Tok} {u2 : Tok} {u3 : Tok} {u4 : Tok} (k0 : u0.type = T.«AT») (k1 : u1.type = T.«__ANON_2») (k2 : u2.type = T.«LPAR») (k3 : u3.type = T.«RPAR») (k4 : u4.type = T.«_CPP_COMMENT_NL») :
    Y N.«decorator» (nd "decorator" [tk T.«__ANON_2» u1.text]) (u0 :: (u1 :: (u2 :: (u3 :: [u4])))) n :=
  Y.node ⟨N.«decorator», [T.«AT», T.«__ANON_2», T.«LPAR», T.«RPAR», T.«_CPP_COMMENT_NL»], "decorator", false, [(1, false, 0)], 0⟩ (by decide +kernel) rfl (by decide) (free_plain (by decide) (by decide)) (cs := [tk T.«AT» u0.text, tk T.«__ANON_2» u1.text, tk T.«LPAR» u2.text, tk T.«RPAR» u3.text, tk T.«_CPP_COMMENT_NL» u4.text]) (by have : YL [T.«AT», T.«__ANON_2», T.«LPAR», T.«RPAR», T.«_CPP_COMMENT_NL»] [tk T.«AT» u0.text, tk T.«__ANON_2» u1.text, tk T.«LPAR» u2.text, tk T.«RPAR» u3.text, tk T.«_CPP_COMMENT_NL» u4.text] (u0 :: (u1 :: (u2 :: (u3 :: (u4 :: ([])))))) n := (.tok k0 (by decide) (.tok k1 (by decide) (.tok k2 (by decide) (.tok k3 (by decide) (.tok k4 (by decide) .nil))))); simpa only [List.append_assoc, List.nil_append, List.append_nil, List.cons_append, nextT_append, nextT_cons, nextT_nil] using this) (by simp only [keepKids', List.flatMap_cons, List.flatMap_nil, List.replicate_zero, List.replicate_succ, List.getElem?_cons_zero, List.getElem?_cons_succ, Bool.false_eq_true, if_true, if_false, List.append_nil, List.nil_append, List.cons_append, List.append_assoc, kidsOf_nd] <;> rfl)

theorem y_216 {n : Nat} {u0 : Tok} {u1 : Tok} {u2 : Tok} {u3 : Tok} {u4 : Tok} {u5 : Tok} {u6 : Tok} {u7 : Tok} (k0 : u0.type = T.«AT») (k1 : u1.type = T.«__ANON_2») (k2 : u2.type = T.«LPAR») (k3 : u3.type = T.«RPAR») (k4 : u4.type = T.«_CPP_COMMENT_NL») (k5 : u5.type = T.«_CPP_COMMENT_NL») (k6 : u6.type = T.«_CPP_COMMENT_NL») (k7 : u7.type = T.«_CPP_COMMENT_NL») :
    Y N.«decorator» (nd "decorator" [tk T.«__ANON_2» u1.text]) (u0 :: (u1 :: (u2 :: (u3 :: (u4 :: (u5 :: (u6 :: [u7]))))))) n :=
  Y.node ⟨N.«decorator», [T.«AT», T.«__ANON_2», T.«LPAR», T.«RPAR», T.«_CPP_COMMENT_NL», T.«_CPP_COMMENT_NL», T.«_CPP_COMMENT_NL», T.«_CPP_COMMENT_NL»], "decorator", false, [(1, false, 0)], 0⟩ (by decide +kernel) rfl (by decide) (free_plain (by decide) (by decide)) (cs := [tk T.«AT» u0.text, tk T.«__ANON_2» u1.text, tk T.«LPAR» u2.text, tk T.«RPAR» u3.text, tk T.«_CPP_COMMENT_NL» u4.text, tk T.«_CPP_COMMENT_NL» u5.text, tk T.«_CPP_COMMENT_NL» u6.text, tk T.«_CPP_COMMENT_NL» u7.text]) (by have : YL [T.«AT», T.«__ANON_2», T.«LPAR», T.«RPAR», T.«_CPP_COMMENT_NL», T.«_CPP_COMMENT_NL», T.«_CPP_COMMENT_NL», T.«_CPP_COMMENT_NL»] [tk T.«AT» u0.text, tk T.«__ANON_2» u1.text, tk T.«LPAR» u2.text, tk T.«RPAR» u3.text, tk T.«_CPP_COMMENT_NL» u4.text, tk T.«_CPP_COMMENT_NL» u5.text, tk T.«_CPP_COMMENT_NL» u6.text, tk T.«_CPP_COMMENT_NL» u7.text] (u0 :: (u1 :: (u2 :: (u3 :: (u4 :: (u5 :: (u6 :: (u7 :: ([]))))))))) n := (.tok k0 (by decide) (.tok k1 (by decide) (.tok k2 (by decide) (.tok k3 (by decide) (.tok k4 (by decide) (.tok k5 (by decide) (.tok k6 (by decide) (.tok k7 (by decide) .nil)))))))); simpa only [List.append_assoc, List.nil_append, List.append_nil, List.cons_append, nextT_append, nextT_cons, nextT_nil] using this) (by simp only [keepKids', List.flatMap_cons, List.flatMap_nil, List.replicate_zero, List.replicate_succ, List.getElem?_cons_zero, List.getElem?_cons_succ, Bool.false_eq_true, if_true, if_false, List.append_nil, List.nil_append, List.cons_append, List.append_assoc, kidsOf_nd] <;> rfl)

theorem y_219 {n : Nat} {u0 : Tok} {u1 : Tok} {u2 : Tok} {u3 : Tok} {u4 : Tok} {u5 : Tok} {u6 : Tok} {u7 : Tok} {u8 : Tok} {u9 : Tok} {u10 : Tok} (k0 : u0.type = T.«AT») (k1 : u1.type = T.«__ANON_2») (k2 : u2.type = T.«LPAR») (k3 : u3.type = T.«RPAR») (k4 : u4.type = T.«_CPP_COMMENT_NL») (k5 : u5.type = T.«_CPP_COMMENT_NL») (k6 : u6.type = T.«_CPP_COMMENT_NL») (k7 : u7.type = T.«_CPP_COMMENT_NL») (k8 : u8.type = T.«_CPP_COMMENT_NL») (k9 : u9.type = T.«_CPP_COMMENT_NL») (k10 : u10.type = T.«_CPP_COMMENT_NL») :
    Y N.«decorator» (nd "decorator" [tk T.«__ANON_2» u1.text]) (u0 :: (u1 :: (u2 :: (u3 :: (u4 :: (u5 :: (u6 :: (u7 :: (u8 :: (u9 :: [u10])))))))))) n :=
  Y.node ⟨N.«decorator», [T.«AT», T.«__ANON_2», T.«LPAR», T.«RPAR», T.«_CPP_COMMENT_NL», T.«_CPP_COMMENT_NL», T.«_CPP_COMMENT_NL», T.«_CPP_COMMENT_NL», T.«_CPP_COMMENT_NL», T.«_CPP_COMMENT_NL», T.«_CPP_COMMENT_NL»], "decorator", false, [(1, false, 0)], 0⟩ (by decide +kernel) rfl (by decide) (free_plain (by decide) (by decide)) (cs := [tk T.«AT» u0.text, tk T.«__ANON_2» u1.text, tk T.«LPAR» u2.text, tk T.«RPAR» u3.text, tk T.«_CPP_COMMENT_NL» u4.text, tk T.«_CPP_COMMENT_NL» u5.text, tk T.«_CPP_COMMENT_NL» u6.text, tk T.«_CPP_COMMENT_NL» u7.text, tk T.«_CPP_COMMENT_NL» u8.text, tk T.«_CPP_COMMENT_NL» u9.text, tk T.«_CPP_COMMENT_NL» u10.text]) (by have : YL [T.«AT», T.«__ANON_2», T.«LPAR», T.«RPAR», T.«_CPP_COMMENT_NL», T.«_CPP_COMMENT_NL», T.«_CPP_COMMENT_NL», T.«_CPP_COMMENT_NL», T.«_CPP_COMMENT_NL», T.«_CPP_COMMENT_NL», T.«_CPP_COMMENT_NL»] [tk T.«AT» u0.text, tk T.«__ANON_2» u1.text, tk T.«LPAR» u2.text, tk T.«RPAR» u3.text, tk T.«_CPP_COMMENT_NL» u4.text, tk T.«_CPP_COMMENT_NL» u5.text, tk T.«_CPP_COMMENT_NL» u6.text, tk T.«_CPP_COMMENT_NL» u7.text, tk T.«_CPP_COMMENT_NL» u8.text, tk T.«_CPP_COMMENT_NL» u9.text, tk T.«_CPP_COMMENT_NL» u10.text] (u0 :: (u1 :: (u2 :: (u3 :: (u4 :: (u5 :: (u6 :: (u7 :: (u8 :: (u9 :: (u10 :: ([])))))))))))) n := (.tok k0 (by decide) (.tok k1 (by decide) (.tok k2 (by decide) (.tok k3 (by decide) (.tok k4 (by decide) (.tok k5 (by decide) (.tok k6 (by decide) (.tok k7 (by decide) (.tok k8 (by decide) (.tok k9 (by decide) (.tok k10 (by decide) .nil))))))))))); simpa only [List.append_assoc, List.nil_append, List.append_nil, List.cons_append, nextT_append, nextT_cons, nextT_nil] using this) (by simp only [keepKids', List.flatMap_cons, List.flatMap_nil, List.replicate_zero, List.replicate_succ, List.getElem?_cons_zero, List.getElem?_cons_succ, Bool.false_eq_true, if_true, if_false, List.append_nil, List.nil_append, List.cons_append, List.append_assoc, kidsOf_nd] <;> rfl)

theorem y_222 {n : Nat} {u0 : Tok} {u1 : Tok} {u2 : Tok} {u3 : Tok} {u4 : Tok} {u5 : Tok} {u6 : Tok} {u7 : Tok} {u8 : Tok} {u9 : Tok} {u10 : Tok} {u11 : Tok} {u12 : Tok} {u13 : Tok} (k0 : u0.type = T.«AT») (k1 : u1.type = T.«__ANON_2») (k2 : u2.type = T.«LPAR») (k3 : u3.type = T.«RPAR») (k4 : u4.type = T.«_CPP_COMMENT_NL») (k5 : u5.type = T.«_CPP_COMMENT_NL») (k6 : u6.type = T.«_CPP_COMMENT_NL») (k7 : u7.type = T.«_CPP_COMMENT_NL») (k8 : u8.type = T.«_CPP_COMMENT_NL») (k9 : u9.type = T.«_CPP_COMMENT_NL») (k10 : u10.type = T.«_CPP_COMMENT_NL») (k11 : u11.type = T.«_CPP_COMMENT_NL») (k12 : u12.type = T.«_CPP_COMMENT_NL») (k13 : u13.type = T.«_CPP_COMMENT_NL») :
    Y N.«decorator» (nd "decorator" [tk T.«__ANON_2» u1.text]) (u0 :: (u1 :: (u2 :: (u3 :: (u4 :: (u5 :: (u6 :: (u7 :: (u8 :: (u9 :: (u10 :: (u11 :: (u12 :: [u13]))))))))))))) n :=
  Y.node ⟨N.«decorator», [T.«AT», T.«__ANON_2», T.«LPAR», T.«RPAR», T.«_CPP_COMMENT_NL», T.«_CPP_COMMENT_NL», T.«_CPP_COMMENT_NL», T.«_CPP_COMMENT_NL», T.«_CPP_COMMENT_NL», T.«_CPP_COMMENT_NL», T.«_CPP_COMMENT_NL», T.«_CPP_COMMENT_NL», T.«_CPP_COMMENT_NL», T.«_CPP_COMMENT_NL»], "decorator", false, [(1, false, 0)], 0⟩ (by decide +kernel) rfl (by decide) (free_plain (by decide) (by decide)) (cs := [tk T.«AT» u0.text, tk T.«__ANON_2» u1.text, tk T.«LPAR» u2.text, tk T.«RPAR» u3.text, tk T.«_CPP_COMMENT_NL» u4.text, tk T.«_CPP_COMMENT_NL» u5.text, tk T.«_CPP_COMMENT_NL» u6.text, tk T.«_CPP_COMMENT_NL» u7.text, tk T.«_CPP_COMMENT_NL» u8.text, tk T.«_CPP_COMMENT_NL» u9.text, tk T.«_CPP_COMMENT_NL» u10.text, tk T.«_CPP_COMMENT_NL» u11.text, tk T.«_CPP_COMMENT_NL» u12.text, tk T.«_CPP_COMMENT_NL» u13.text]) (by have : YL [T.«AT», T.«__ANON_2», T.«LPAR», T.«RPAR», T.«_CPP_COMMENT_NL», T.«_CPP_COMMENT_NL», T.«_CPP_COMMENT_NL», T.«_CPP_COMMENT_NL», T.«_CPP_COMMENT_NL», T.«_CPP_COMMENT_NL», T.«_CPP_COMMENT_NL», T.«_CPP_COMMENT_NL», T.«_CPP_COMMENT_NL», T.«_CPP_COMMENT_NL»] [tk T.«AT» u0.text, tk T.«__ANON_2» u1.text, tk T.«LPAR» u2.text, tk T.«RPAR» u3.text, tk T.«_CPP_COMMENT_NL» u4.text, tk T.«_CPP_COMMENT_NL» u5.text, tk T.«_CPP_COMMENT_NL» u6.text, tk T.«_CPP_COMMENT_NL» u7.text, tk T.«_CPP_COMMENT_NL» u8.text, tk T.«_CPP_COMMENT_NL» u9.text, tk T.«_CPP_COMMENT_NL» u10.text, tk T.«_CPP_COMMENT_NL» u11.text, tk T.«_CPP_COMMENT_NL» u12.text, tk T.«_CPP_COMMENT_NL» u13.text] (u0 :: (u1 :: (u2 :: (u3 :: (u4 :: (u5 :: (u6 :: (u7 :: (u8 :: (u9 :: (u10 :: (u11 :: (u12 :: (u13 :: ([]))))))))))))))) n := (.tok k0 (by decide) (.tok k1 (by decide) (.tok k2 (by decide) (.tok k3 (by decide) (.tok k4 (by decide) (.tok k5 (by decide) (.tok k6 (by decide) (.tok k7 (by decide) (.tok k8 (by decide) (.tok k9 (by decide) (.tok k10 (by decide) (.tok k11 (by decide) (.tok k12 (by decide) (.tok k13 (by decide) .nil)))))))))))))); simpa only [List.append_assoc, List.nil_append, List.append_nil, List.cons_append, nextT_append, nextT_cons, nextT_nil] using this) (by simp only [keepKids', List.flatMap_cons, List.flatMap_nil, List.replicate_zero, List.replicate_succ, List.getElem?_cons_zero, List.getElem?_cons_succ, Bool.false_eq_true, if_true, if_false, List.append_nil, List.nil_append, List.cons_append, List.append_assoc, kidsOf_nd] <;> rfl)

theorem y_225 {n : Nat} {u0 : Tok} {u1 : Tok} {c2 : Tree} {w2 : List Tok} {t3 : List Tree} {w3 : List Tok} {u4 : Tok} (k0 : u0.type = T.«FUNCTION») (k1 : u1.type = T.«_CPP_COMMENT_NL») (h2 : Y N.«value_brackets» c2 w2 (nextT w3 u4.type)) (h3 : Y N.«__function_star_12» (nd "__function_star_12" t3) w3 u4.type) (k4 : u4.type = T.«RPAR») :
    Y N.«function» (nd "function" (tk T.«FUNCTION» u0.text :: (c2 :: t3))) (u0 :: (u1 :: (w2 ++ (w3 ++ [u4])))) n :=
  Y.node ⟨N.«function», [T.«FUNCTION», T.«_CPP_COMMENT_NL», N.«value_brackets», N.«__function_star_12», T.«RPAR»], "function", false, [(0, false, 0), (2, false, 0), (3, true, 0)], 0⟩ (by decide +kernel) rfl (by decide) (free_plain (by decide) (by decide)) (cs := [tk T.«FUNCTION» u0.text, tk T.«_CPP_COMMENT_NL» u1.text, c2, nd "__function_star_12" t3, tk T.«RPAR» u4.text]) (by have : YL [T.«FUNCTION», T.«_CPP_COMMENT_NL», N.«value_brackets», N.«__function_star_12», T.«RPAR»] [tk T.«FUNCTION» u0.text, tk T.«_CPP_COMMENT_NL» u1.text, c2, nd "__function_star_12" t3, tk T.«RPAR» u4.text] (u0 :: (u1 :: (w2 ++ (w3 ++ (u4 :: ([])))))) n := (.tok k0 (by decide) (.tok k1 (by decide) (.nt (by simpa only [List.append_assoc, List.nil_append, List.append_nil, List.cons_append, nextT_append, nextT_cons, nextT_nil] using h2) (.nt (by simpa only [List.append_assoc, List.nil_append, List.append_nil, List.cons_append, nextT_append, nextT_cons, nextT_nil] using h3) (.tok k4 (by decide) .nil) (fun h h' => by first | exact absurd h (by decide) | exact absurd h' (by decide))) (fun h h' => by first | exact absurd h (by decide) | exact absurd h' (by decide))))); simpa only [List.append_assoc, List.nil_append, List.append_nil, List.cons_append, nextT_append, nextT_cons, nextT_nil] using this) (by simp only [keepKids', List.flatMap_cons, List.flatMap_nil, List.replicate_zero, List.replicate_succ, List.getElem?_cons_zero, List.getElem?_cons_succ, Bool.false_eq_true, if_true, if_false, List.append_nil, List.nil_append, List.cons_append, List.append_assoc, kidsOf_nd] <;> rfl)

theorem y_228 {n : Nat} {u0 : Tok} {u1 : Tok} {t2 : List Tree} {w2 : List Tok} {u3 : Tok} {u4 : Tok} (k0 : u0.type = T.«FUNCTION») (k1 : u1.type = T.«_CPP_COMMENT_NL») (h2 : Y N.«__function_star_12» (nd "__function_star_12" t2) w2 u3.type) (k3 : u3.type = T.«_CPP_COMMENT_NL») (k4 : u4.type = T.«RPAR») :
    Y N.«function» (nd "function" (tk T.«FUNCTION» u0.text :: t2)) (u0 :: (u1 :: (w2 ++ (u3 :: [u4])))) n :=
  Y.node ⟨N.«function», [T.«FUNCTION», T.«_CPP_COMMENT_NL», N.«__function_star_12», T.«_CPP_COMMENT_NL», T.«RPAR»], "function", false, [(0, false, 0), (2, true, 0)], 0⟩ (by decide +kernel) rfl (by decide) (free_plain (by decide) (by decide)) (cs := [tk T.«FUNCTION» u0.text, tk T.«_CPP_COMMENT_NL» u1.text, nd "__function_star_12" t2, tk T.«_CPP_COMMENT_NL» u3.text, tk T.«RPAR» u4.text]) (by have : YL [T.«FUNCTION», T.«_CPP_COMMENT_NL», N.«__function_star_12», T.«_CPP_COMMENT_NL», T.«RPAR»] [tk T.«FUNCTION» u0.text, tk T.«_CPP_COMMENT_NL» u1.text, nd "__function_star_12" t2, tk T.«_CPP_COMMENT_NL» u3.text, tk T.«RPAR» u4.text] (u0 :: (u1 :: (w2 ++ (u3 :: (u4 :: ([])))))) n := (.tok k0 (by decide) (.tok k1 (by decide) (.nt (by simpa only [List.append_assoc, List.nil_append, List.append_nil, List.cons_append, nextT_append, nextT_cons, nextT_nil] using h2) (.tok k3 (by decide) (.tok k4 (by decide) .nil)) (fun h h' => by first | exact absurd h (by decide) | exact absurd h' (by decide))))); simpa only [List.append_assoc, List.nil_append, List.append_nil, List.cons_append, nextT_append, nextT_cons, nextT_nil] using this) (by simp only [keepKids', List.flatMap_cons, List.flatMap_nil, List.replicate_zero, List.replicate_succ, List.getElem?_cons_zero, List.getElem?_cons_succ, Bool.false_eq_true, if_true, if_false, List.append_nil, List.nil_append, List.cons_append, List.append_assoc, kidsOf_nd] <;> rfl)

theorem y_231 {n : Nat} {u0 : Tok} {u1 : Tok} {u2 : Tok} (k0 : u0.type = T.«FUNCTION») (k1 : u1.type = T.«_CPP_COMMENT_NL») (k2 : u2.type = T.«RPAR») :
    Y N.«function» (nd "function" [tk T.«FUNCTION» u0.text]) (u0 :: (u1 :: [u2])) n :=
  Y.node ⟨N.«function», [T.«FUNCTION», T.«_CPP_COMMENT_NL», T.«RPAR»], "function", false, [(0, false, 0)], 0⟩ (by decide +kernel) rfl (by decide) (free_plain (by decide) (by decide)) (cs := [tk T.«FUNCTION» u0.text, tk T.«_CPP_COMMENT_NL» u1.text, tk T.«RPAR» u2.text]) (by have : YL [T.«FUNCTION», T.«_CPP_COMMENT_NL», T.«RPAR»] [tk T.«FUNCTION» u0.text, tk T.«_CPP_COMMENT_NL» u1.text, tk T.«RPAR» u2.text] (u0 :: (u1 :: (u2 :: ([])))) n := (.tok k0 (by decide) (.tok k1 (by decide) (.tok k2 (by decide) .nil))); simpa only [List.append_assoc, List.nil_append, List.append_nil, List.cons_append, nextT_append, nextT_cons, nextT_nil] using this) (by simp only [keepKids', List.flatMap_cons, List.flatMap_nil, List.replicate_zero, List.replicate_succ, List.getElem?_cons_zero, List.getElem?_cons_succ, Bool.false_eq_true, if_true, if_false, List.append_nil, List.nil_append, List.cons_append, List.append_assoc, kidsOf_nd] <;> rfl)

theorem y_234 {n : Nat} {u0 : Tok} {c1 : Tree} {w1 : List Tok} {u2 : Tok} {u3 : Tok} (k0 : u0.type = T.«FUNCTION») (h1 : Y N.«value_brackets» c1 w1 u2.type) (k2 : u2.type = T.«_CPP_COMMENT_NL») (k3 : u3.type = T.«RPAR») :
    Y N.«function» (nd "function" (tk T.«FUNCTION» u0.text :: [c1])) (u0 :: (w1 ++ (u2 :: [u3]))) n :=
  Y.node ⟨N.«function», [T.«FUNCTION», N.«value_brackets», T.«_CPP_COMMENT_NL», T.«RPAR»], "function", false, [(0, false, 0), (1, false, 0)], 0⟩ (by decide +kernel) rfl (by decide) (free_plain (by decide) (by decide)) (cs := [tk T.«FUNCTION» u0.text, c1, tk T.«_CPP_COMMENT_NL» u2.text, tk T.«RPAR» u3.text]) (by have : YL [T.«FUNCTION», N.«value_brackets», T.«_CPP_COMMENT_NL», T.«RPAR»] [tk T.«FUNCTION» u0.text, c1, tk T.«_CPP_COMMENT_NL» u2.text, tk T.«RPAR» u3.text] (u0 :: (w1 ++ (u2 :: (u3 :: ([]))))) n := (.tok k0 (by decide) (.nt (by simpa only [List.append_assoc, List.nil_append, List.append_nil, List.cons_append, nextT_append, nextT_cons, nextT_nil] using h1) (.tok k2 (by decide) (.tok k3 (by decide) .nil)) (fun h h' => by first | exact absurd h (by decide) | exact absurd h' (by decide)))); simpa only [List.append_assoc, List.nil_append, List.append_nil, List.cons_append, nextT_append, nextT_cons, nextT_nil] using this) (by simp only [keepKids', List.flatMap_cons, List.flatMap_nil, List.replicate_zero, List.replicate_succ, List.getElem?_cons_zero, List.getElem?_cons_succ, Bool.false_eq_true, if_true, if_false, List.append_nil, List.nil_append, List.cons_append, List.append_assoc, kidsOf_nd] <;> rfl)

theorem y_237 {n : Nat} {u0 : Tok} {t1 : List Tree} {w1 : List Tok} {u2 : Tok} (k0 : u0.type = T.«FUNCTION») (h1 : Y N.«__function_star_12» (nd "__function_star_12" t1) w1 u2.type) (k2 : u2.type = T.«RPAR») :
    Y N.«function» (nd "function" (tk T.«FUNCTION» u0.text :: t1)) (u0 :: (w1 ++ [u2])) n :=
  Y.node ⟨N.«function», [T.«FUNCTION», N.«__function_star_12», T.«RPAR»], "function", false, [(0, false, 0), (1, true, 0)], 0⟩ (by decide +kernel) rfl (by decide) (free_plain (by decide) (by decide)) (cs := [tk T.«FUNCTION» u0.text, nd "__function_star_12" t1, tk T.«RPAR» u2.text]) (by have : YL [T.«FUNCTION», N.«__function_star_12», T.«RPAR»] [tk T.«FUNCTION» u0.text, nd "__function_star_12" t1, tk T.«RPAR» u2.text] (u0 :: (w1 ++ (u2 :: ([])))) n := (.tok k0 (by decide) (.nt (by simpa only [List.append_assoc, List.nil_append, List.append_nil, List.cons_append, nextT_append, nextT_cons, nextT_nil] using h1) (.tok k2 (by decide) .nil) (fun h h' => by first | exact absurd h (by decide) | exact absurd h' (by decide)))); simpa only [List.append_assoc, List.nil_append, List.append_nil, List.cons_append, nextT_append, nextT_cons, nextT_nil] using this) (by simp only [keepKids', List.flatMap_cons, List.flatMap_nil, List.replicate_zero, List.replicate_succ, List.getElem?_cons_zero, List.getElem?_cons_succ, Bool.false_eq_true, if_true, if_false, List.append_nil, List.nil_append, List.cons_append, List.append_assoc, kidsOf_nd] <;> rfl)

theorem y_240 {n : Nat} {c0 : Tree} {w0 : List Tok} (h0 : Y N.«operator_logical» c0 w0 n) :
    Y N.«operator» (nd "operator" [c0]) w0 n :=
  Y.node ⟨N.«operator», [N.«operator_logical»], "operator", false, [(0, false, 0)], 0⟩ (by decide +kernel) rfl (by decide) (free_plain (by decide) (by decide)) (cs := [c0]) (by have : YL [N.«operator_logical»] [c0] (w0 ++ ([])) n := (.nt (by simpa only [List.append_assoc, List.nil_append, List.append_nil, List.cons_append, nextT_append, nextT_cons, nextT_nil] using h0) .nil (fun h h' => by first | exact absurd h (by decide) | exact absurd h' (by decide))); simpa only [List.append_assoc, List.nil_append, List.append_nil, List.cons_append, nextT_append, nextT_cons, nextT_nil] using this) (by simp only [keepKids', List.flatMap_cons, List.flatMap_nil, List.replicate_zero, List.replicate_succ, List.getElem?_cons_zero, List.getElem?_cons_succ, Bool.false_eq_true, if_true, if_false, List.append_nil, List.nil_append, List.cons_append, List.append_assoc, kidsOf_nd] <;> rfl)

theorem y_243 {n : Nat} {c0 : Tree} {w0 : List Tok} (h0 : Y N.«greater_than_or_equals» c0 w0 n) (hm : isMeta c0 = false) :
    Y N.«operator_comparison» (c0) w0 n :=
  Y.ex ⟨N.«operator_comparison», [N.«greater_than_or_equals»], "operator_comparison", true, [(0, false, 0)], 0⟩ (by decide +kernel) rfl (by decide) (free_plain (by decide) (by decide)) (cs := [c0]) (by have : YL [N.«greater_than_or_equals»] [c0] (w0 ++ ([])) n := (.nt (by simpa only [List.append_assoc, List.nil_append, List.append_nil, List.cons_append, nextT_append, nextT_cons, nextT_nil] using h0) .nil (fun h h' => by first | exact absurd h (by decide) | exact absurd h' (by decide))); simpa only [List.append_assoc, List.nil_append, List.append_nil, List.cons_append, nextT_append, nextT_cons, nextT_nil] using this) (by simp only [keepKids', List.flatMap_cons, List.flatMap_nil, List.replicate_zero, List.replicate_succ, List.getElem?_cons_zero, List.getElem?_cons_succ, Bool.false_eq_true, if_true, if_false, List.append_nil, List.nil_append, List.cons_append, List.append_assoc, kidsOf_nd] <;> rfl) hm

theorem y_246 {n : Nat} {c0 : Tree} {w0 : List Tok} (h0 : Y N.«less_than» c0 w0 n) (hm : isMeta c0 = false) :
    Y N.«operator_comparison» (c0) w0 n :=
  Y.ex ⟨N.«operator_comparison», [N.«less_than»], "operator_comparison", true, [(0, false, 0)], 0⟩ (by decide +kernel) rfl (by decide) (free_plain (by decide) (by decide)) (cs := [c0]) (by have : YL [N.«less_than»] [c0] (w0 ++ ([])) n := (.nt (by simpa only [List.append_assoc, List.nil_append, List.append_nil, List.cons_append, nextT_append, nextT_cons, nextT_nil] using h0) .nil (fun h h' => by first | exact absurd h (by decide) | exact absurd h' (by decide))); simpa only [List.append_assoc, List.nil_append, List.append_nil, List.cons_append, nextT_append, nextT_cons, nextT_nil] using this) (by simp only [keepKids', List.flatMap_cons, List.flatMap_nil, List.replicate_zero, List.replicate_succ, List.getElem?_cons_zero, List.getElem?_cons_succ, Bool.false_eq_true, if_true, if_false, List.append_nil, List.nil_append, List.cons_append, List.append_assoc, kidsOf_nd] <;> rfl) hm

theorem y_249 {n : Nat} {c0 : Tree} {w0 : List Tok} (h0 : Y N.«equals_case_insens» c0 w0 n) (hm : isMeta c0 = false) :
    Y N.«operator_comparison» (c0) w0 n :=
  Y.ex ⟨N.«operator_comparison», [N.«equals_case_insens»], "operator_comparison", true, [(0, false, 0)], 0⟩ (by decide +kernel) rfl (by decide) (free_plain (by decide) (by decide)) (cs := [c0]) (by have : YL [N.«equals_case_insens»] [c0] (w0 ++ ([])) n := (.nt (by simpa only [List.append_assoc, List.nil_append, List.append_nil, List.cons_append, nextT_append, nextT_cons, nextT_nil] using h0) .nil (fun h h' => by first | exact absurd h (by decide) | exact absurd h' (by decide))); simpa only [List.append_assoc, List.nil_append, List.append_nil, List.cons_append, nextT_append, nextT_cons, nextT_nil] using this) (by simp only [keepKids', List.flatMap_cons, List.flatMap_nil, List.replicate_zero, List.replicate_succ, List.getElem?_cons_zero, List.getElem?_cons_succ, Bool.false_eq_true, if_true, if_false, List.append_nil, List.nil_append, List.cons_append, List.append_assoc, kidsOf_nd] <;> rfl) hm

theorem y_252 {n : Nat} {c0 : Tree} {w0 : List Tok} {u1 : Tok} {c2 : Tree} {w2 : List Tok} (h0 : Y N.«value_brackets» c0 w0 u1.type) (k1 : u1.type = T.«MORETHAN») (h2 : Y N.«value_brackets» c2 w2 n) (hn : NoInfix n) :
    Y N.«greater_than» (nd "greater_than" (c0 :: [c2])) (w0 ++ (u1 :: w2)) n :=
  Y.node ⟨N.«greater_than», [N.«value_brackets», T.«MORETHAN», N.«value_brackets»], "greater_than", false, [(0, false, 0), (2, false, 0)], 0⟩ (by decide +kernel) rfl (by decide) (free_infix (by decide) hn) (cs := [c0, tk T.«MORETHAN» u1.text, c2]) (by have : YL [N.«value_brackets», T.«MORETHAN», N.«value_brackets»] [c0, tk T.«MORETHAN» u1.text, c2] (w0 ++ (u1 :: (w2 ++ ([])))) n := (.nt (by simpa only [List.append_assoc, List.nil_append, List.append_nil, List.cons_append, nextT_append, nextT_cons, nextT_nil] using h0) (.tok k1 (by decide) (.nt (by simpa only [List.append_assoc, List.nil_append, List.append_nil, List.cons_append, nextT_append, nextT_cons, nextT_nil] using h2) .nil (fun h h' => by first | exact absurd h (by decide) | exact absurd h' (by decide)))) (fun h h' => by first | exact absurd h (by decide) | exact absurd h' (by decide))); simpa only [List.append_assoc, List.nil_append, List.append_nil, List.cons_append, nextT_append, nextT_cons, nextT_nil] using this) (by simp only [keepKids', List.flatMap_cons, List.flatMap_nil, List.replicate_zero, List.replicate_succ, List.getElem?_cons_zero, List.getElem?_cons_succ, Bool.false_eq_true, if_true, if_false, List.append_nil, List.nil_append, List.cons_append, List.append_assoc, kidsOf_nd] <;> rfl)

theorem y_255 {n : Nat} {c0 : Tree} {w0 : List Tok} {u1 : Tok} {c2 : Tree} {w2 : List Tok} (h0 : Y N.«value_brackets» c0 w0 u1.type) (k1 : u1.type = T.«__ANON_5») (h2 : Y N.«value_brackets» c2 w2 n) (hn : NoInfix n) :
    Y N.«equals» (nd "equals" (c0 :: [c2])) (w0 ++ (u1 :: w2)) n :=
  Y.node ⟨N.«equals», [N.«value_brackets», T.«__ANON_5», N.«value_brackets»], "equals", false, [(0, false, 0), (2, false, 0)], 0⟩ (by decide +kernel) rfl (by decide) (free_infix (by decide) hn) (cs := [c0, tk T.«__ANON_5» u1.text, c2]) (by have : YL [N.«value_brackets», T.«__ANON_5», N.«value_brackets»] [c0, tk T.«__ANON_5» u1.text, c2] (w0 ++ (u1 :: (w2 ++ ([])))) n := (.nt (by simpa only [List.append_assoc, List.nil_append, List.append_nil, List.cons_append, nextT_append, nextT_cons, nextT_nil] using h0) (.tok k1 (by decide) (.nt (by simpa only [List.append_assoc, List.nil_append, List.append_nil, List.cons_append, nextT_append, nextT_cons, nextT_nil] using h2) .nil (fun h h' => by first | exact absurd h (by decide) | exact absurd h' (by decide)))) (fun h h' => by first | exact absurd h (by decide) | exact absurd h' (by decide))); simpa only [List.append_assoc, List.nil_append, List.append_nil, List.cons_append, nextT_append, nextT_cons, nextT_nil] using this) (by simp only [keepKids', List.flatMap_cons, List.flatMap_nil, List.replicate_zero, List.replicate_succ, List.getElem?_cons_zero, List.getElem?_cons_succ, Bool.false_eq_true, if_true, if_false, List.append_nil, List.nil_append, List.cons_append, List.append_assoc, kidsOf_nd] <;> rfl)

theorem y_258 {n : Nat} {c0 : Tree} {w0 : List Tok} {u1 : Tok} {c2 : Tree} {w2 : List Tok} (h0 : Y N.«value_brackets» c0 w0 u1.type) (k1 : u1.type = T.«__ANON_8») (h2 : Y N.«value_brackets» c2 w2 n) (hn : NoInfix n) :
    Y N.«not_equals_case_insens» (nd "not_equals_case_insens" (c0 :: [c2])) (w0 ++ (u1 :: w2)) n :=
  Y.node ⟨N.«not_equals_case_insens», [N.«value_brackets», T.«__ANON_8», N.«value_brackets»], "not_equals_case_insens", false, [(0, false, 0), (2, false, 0)], 0⟩ (by decide +kernel) rfl (by decide) (free_infix (by decide) hn) (cs := [c0, tk T.«__ANON_8» u1.text, c2]) (by have : YL [N.«value_brackets», T.«__ANON_8», N.«value_brackets»] [c0, tk T.«__ANON_8» u1.text, c2] (w0 ++ (u1 :: (w2 ++ ([])))) n := (.nt (by simpa only [List.append_assoc, List.nil_append, List.append_nil, List.cons_append, nextT_append, nextT_cons, nextT_nil] using h0) (.tok k1 (by decide) (.nt (by simpa only [List.append_assoc, List.nil_append, List.append_nil, List.cons_append, nextT_append, nextT_cons, nextT_nil] using h2) .nil (fun h h' => by first | exact absurd h (by decide) | exact absurd h' (by decide)))) (fun h h' => by first | exact absurd h (by decide) | exact absurd h' (by decide))); simpa only [List.append_assoc, List.nil_append, List.append_nil, List.cons_append, nextT_append, nextT_cons, nextT_nil] using this) (by simp only [keepKids', List.flatMap_cons, List.flatMap_nil, List.replicate_zero, List.replicate_succ, List.getElem?_cons_zero, List.getElem?_cons_succ, Bool.false_eq_true, if_true, if_false, List.append_nil, List.nil_append, List.cons_append, List.append_assoc, kidsOf_nd] <;> rfl)

theorem y_261 {n : Nat} {c0 : Tree} {w0 : List Tok} (h0 : Y N.«not_op» c0 w0 n) (hm : isMeta c0 = false) :
    Y N.«operator_logical» (c0) w0 n :=
  Y.ex ⟨N.«operator_logical», [N.«not_op»], "operator_logical", true, [(0, false, 0)], 0⟩ (by decide +kernel) rfl (by decide) (free_plain (by decide) (by decide)) (cs := [c0]) (by have : YL [N.«not_op»] [c0] (w0 ++ ([])) n := (.nt (by simpa only [List.append_assoc, List.nil_append, List.append_nil, List.cons_append, nextT_append, nextT_cons, nextT_nil] using h0) .nil (fun h h' => by first | exact absurd h (by decide) | exact absurd h' (by decide))); simpa only [List.append_assoc, List.nil_append, List.append_nil, List.cons_append, nextT_append, nextT_cons, nextT_nil] using this) (by simp only [keepKids', List.flatMap_cons, List.flatMap_nil, List.replicate_zero, List.replicate_succ, List.getElem?_cons_zero, List.getElem?_cons_succ, Bool.false_eq_true, if_true, if_false, List.append_nil, List.nil_append, List.cons_append, List.append_assoc, kidsOf_nd] <;> rfl) hm

theorem y_264 {n : Nat} {c0 : Tree} {w0 : List Tok} {u1 : Tok} {c2 : Tree} {w2 : List Tok} (h0 : Y N.«value_brackets» c0 w0 u1.type) (k1 : u1.type = T.«__ANON_9») (h2 : Y N.«value_brackets» c2 w2 n) (hn : NoInfix n) :
    Y N.«and_op» (nd "and_op" (c0 :: [c2])) (w0 ++ (u1 :: w2)) n :=
  Y.node ⟨N.«and_op», [N.«value_brackets», T.«__ANON_9», N.«value_brackets»], "and_op", false, [(0, false, 0), (2, false, 0)], 0⟩ (by decide +kernel) rfl (by decide) (free_infix (by decide) hn) (cs := [c0, tk T.«__ANON_9» u1.text, c2]) (by have : YL [N.«value_brackets», T.«__ANON_9», N.«value_brackets»] [c0, tk T.«__ANON_9» u1.text, c2] (w0 ++ (u1 :: (w2 ++ ([])))) n := (.nt (by simpa only [List.append_assoc, List.nil_append, List.append_nil, List.cons_append, nextT_append, nextT_cons, nextT_nil] using h0) (.tok k1 (by decide) (.nt (by simpa only [List.append_assoc, List.nil_append, List.append_nil, List.cons_append, nextT_append, nextT_cons, nextT_nil] using h2) .nil (fun h h' => by first | exact absurd h (by decide) | exact absurd h' (by decide)))) (fun h h' => by first | exact absurd h (by decide) | exact absurd h' (by decide))); simpa only [List.append_assoc, List.nil_append, List.append_nil, List.cons_append, nextT_append, nextT_cons, nextT_nil] using this) (by simp only [keepKids', List.flatMap_cons, List.flatMap_nil, List.replicate_zero, List.replicate_succ, List.getElem?_cons_zero, List.getElem?_cons_succ, Bool.false_eq_true, if_true, if_false, List.append_nil, List.nil_append, List.cons_append, List.append_assoc, kidsOf_nd] <;> rfl)

theorem y_267 {n : Nat} {c0 : Tree} {w0 : List Tok} {u1 : Tok} {c2 : Tree} {w2 : List Tok} (h0 : Y N.«value_brackets» c0 w0 u1.type) (k1 : u1.type = T.«__ANON_11») (h2 : Y N.«value_brackets» c2 w2 n) (hn : NoInfix n) :
    Y N.«coalesce» (nd "coalesce" (c0 :: [c2])) (w0 ++ (u1 :: w2)) n :=
  Y.node ⟨N.«coalesce», [N.«value_brackets», T.«__ANON_11», N.«value_brackets»], "coalesce", false, [(0, false, 0), (2, false, 0)], 0⟩ (by decide +kernel) rfl (by decide) (free_infix (by decide) hn) (cs := [c0, tk T.«__ANON_11» u1.text, c2]) (by have : YL [N.«value_brackets», T.«__ANON_11», N.«value_brackets»] [c0, tk T.«__ANON_11» u1.text, c2] (w0 ++ (u1 :: (w2 ++ ([])))) n := (.nt (by simpa only [List.append_assoc, List.nil_append, List.append_nil, List.cons_append, nextT_append, nextT_cons, nextT_nil] using h0) (.tok k1 (by decide) (.nt (by simpa only [List.append_assoc, List.nil_append, List.append_nil, List.cons_append, nextT_append, nextT_cons, nextT_nil] using h2) .nil (fun h h' => by first | exact absurd h (by decide) | exact absurd h' (by decide)))) (fun h h' => by first | exact absurd h (by decide) | exact absurd h' (by decide))); simpa only [List.append_assoc, List.nil_append, List.append_nil, List.cons_append, nextT_append, nextT_cons, nextT_nil] using this) (by simp only [keepKids', List.flatMap_cons, List.flatMap_nil, List.replicate_zero, List.replicate_succ, List.getElem?_cons_zero, List.getElem?_cons_succ, Bool.false_eq_true, if_true, if_false, List.append_nil, List.nil_append, List.cons_append, List.append_assoc, kidsOf_nd] <;> rfl)

theorem y_270 {n : Nat} {c0 : Tree} {w0 : List Tok} (h0 : Y N.«divide» c0 w0 n) (hm : isMeta c0 = false) :
    Y N.«operator_numeric» (c0) w0 n :=
  Y.ex ⟨N.«operator_numeric», [N.«divide»], "operator_numeric", true, [(0, false, 0)], 0⟩ (by decide +kernel) rfl (by decide) (free_plain (by decide) (by decide)) (cs := [c0]) (by have : YL [N.«divide»] [c0] (w0 ++ ([])) n := (.nt (by simpa only [List.append_assoc, List.nil_append, List.append_nil, List.cons_append, nextT_append, nextT_cons, nextT_nil] using h0) .nil (fun h h' => by first | exact absurd h (by decide) | exact absurd h' (by decide))); simpa only [List.append_assoc, List.nil_append, List.append_nil, List.cons_append, nextT_append, nextT_cons, nextT_nil] using this) (by simp only [keepKids', List.flatMap_cons, List.flatMap_nil, List.replicate_zero, List.replicate_succ, List.getElem?_cons_zero, List.getElem?_cons_succ, Bool.false_eq_true, if_true, if_false, List.append_nil, List.nil_append, List.cons_append, List.append_assoc, kidsOf_nd] <;> rfl) hm

theorem y_273 {n : Nat} {c0 : Tree} {w0 : List Tok} (h0 : Y N.«multiply» c0 w0 n) (hm : isMeta c0 = false) :
    Y N.«operator_numeric» (c0) w0 n :=
  Y.ex ⟨N.«operator_numeric», [N.«multiply»], "operator_numeric", true, [(0, false, 0)], 0⟩ (by decide +kernel) rfl (by decide) (free_plain (by decide) (by decide)) (cs := [c0]) (by have : YL [N.«multiply»] [c0] (w0 ++ ([])) n := (.nt (by simpa only [List.append_assoc, List.nil_append, List.append_nil, List.cons_append, nextT_append, nextT_cons, nextT_nil] using h0) .nil (fun h h' => by first | exact absurd h (by decide) | exact absurd h' (by decide))); simpa only [List.append_assoc, List.nil_append, List.append_nil, List.cons_append, nextT_append, nextT_cons, nextT_nil] using this) (by simp only [keepKids', List.flatMap_cons, List.flatMap_nil, List.replicate_zero, List.replicate_succ, List.getElem?_cons_zero, List.getElem?_cons_succ, Bool.false_eq_true, if_true, if_false, List.append_nil, List.nil_append, List.cons_append, List.append_assoc, kidsOf_nd] <;> rfl) hm

theorem y_276 {n : Nat} {c0 : Tree} {w0 : List Tok} {u1 : Tok} {c2 : Tree} {w2 : List Tok} (h0 : Y N.«value_brackets» c0 w0 u1.type) (k1 : u1.type = T.«SLASH») (h2 : Y N.«value_brackets» c2 w2 n) (hn : NoInfix n) :
    Y N.«divide» (nd "divide" (c0 :: [c2])) (w0 ++ (u1 :: w2)) n :=
  Y.node ⟨N.«divide», [N.«value_brackets», T.«SLASH», N.«value_brackets»], "divide", false, [(0, false, 0), (2, false, 0)], 0⟩ (by decide +kernel) rfl (by decide) (free_infix (by decide) hn) (cs := [c0, tk T.«SLASH» u1.text, c2]) (by have : YL [N.«value_brackets», T.«SLASH», N.«value_brackets»] [c0, tk T.«SLASH» u1.text, c2] (w0 ++ (u1 :: (w2 ++ ([])))) n := (.nt (by simpa only [List.append_assoc, List.nil_append, List.append_nil, List.cons_append, nextT_append, nextT_cons, nextT_nil] using h0) (.tok k1 (by decide) (.nt (by simpa only [List.append_assoc, List.nil_append, List.append_nil, List.cons_append, nextT_append, nextT_cons, nextT_nil] using h2) .nil (fun h h' => by first | exact absurd h (by decide) | exact absurd h' (by decide)))) (fun h h' => by first | exact absurd h (by decide) | exact absurd h' (by decide))); simpa only [List.append_assoc, List.nil_append, List.append_nil, List.cons_append, nextT_append, nextT_cons, nextT_nil] using this) (by simp only [keepKids', List.flatMap_cons, List.flatMap_nil, List.replicate_zero, List.replicate_succ, List.getElem?_cons_zero, List.getElem?_cons_succ, Bool.false_eq_true, if_true, if_false, List.append_nil, List.nil_append, List.cons_append, List.append_assoc, kidsOf_nd] <;> rfl)

theorem y_279 {n : Nat} {c0 : Tree} {w0 : List Tok} {u1 : Tok} {c2 : Tree} {w2 : List Tok} (h0 : Y N.«value_brackets» c0 w0 u1.type) (k1 : u1.type = T.«STAR») (h2 : Y N.«value_brackets» c2 w2 n) (hn : NoInfix n) :
    Y N.«multiply» (nd "multiply" (c0 :: [c2])) (w0 ++ (u1 :: w2)) n :=
  Y.node ⟨N.«multiply», [N.«value_brackets», T.«STAR», N.«value_brackets»], "multiply", false, [(0, false, 0), (2, false, 0)], 0⟩ (by decide +kernel) rfl (by decide) (free_infix (by decide) hn) (cs := [c0, tk T.«STAR» u1.text, c2]) (by have : YL [N.«value_brackets», T.«STAR», N.«value_brackets»] [c0, tk T.«STAR» u1.text, c2] (w0 ++ (u1 :: (w2 ++ ([])))) n := (.nt (by simpa only [List.append_assoc, List.nil_append, List.append_nil, List.cons_append, nextT_append, nextT_cons, nextT_nil] using h0) (.tok k1 (by decide) (.nt (by simpa only [List.append_assoc, List.nil_append, List.append_nil, List.cons_append, nextT_append, nextT_cons, nextT_nil] using h2) .nil (fun h h' => by first | exact absurd h (by decide) | exact absurd h' (by decide)))) (fun h h' => by first | exact absurd h (by decide) | exact absurd h' (by decide))); simpa only [List.append_assoc, List.nil_append, List.append_nil, List.cons_append, nextT_append, nextT_cons, nextT_nil] using this) (by simp only [keepKids', List.flatMap_cons, List.flatMap_nil, List.replicate_zero, List.replicate_succ, List.getElem?_cons_zero, List.getElem?_cons_succ, Bool.false_eq_true, if_true, if_false, List.append_nil, List.nil_append, List.cons_append, List.append_assoc, kidsOf_nd] <;> rfl)

theorem y_282 {n : Nat} {c0 : Tree} {w0 : List Tok} (h0 : Y N.«function_accessor» c0 w0 n) (hm : isMeta c0 = false) :
    Y N.«operator_accessor» (c0) w0 n :=
  Y.ex ⟨N.«operator_accessor», [N.«function_accessor»], "operator_accessor", true, [(0, false, 0)], 0⟩ (by decide +kernel) rfl (by decide) (free_plain (by decide) (by decide)) (cs := [c0]) (by have : YL [N.«function_accessor»] [c0] (w0 ++ ([])) n := (.nt (by simpa only [List.append_assoc, List.nil_append, List.append_nil, List.cons_append, nextT_append, nextT_cons, nextT_nil] using h0) .nil (fun h h' => by first | exact absurd h (by decide) | exact absurd h' (by decide))); simpa only [List.append_assoc, List.nil_append, List.append_nil, List.cons_append, nextT_append, nextT_cons, nextT_nil] using this) (by simp only [keepKids', List.flatMap_cons, List.flatMap_nil, List.replicate_zero, List.replicate_succ, List.getElem?_cons_zero, List.getElem?_cons_succ, Bool.false_eq_true, if_true, if_false, List.append_nil, List.nil_append, List.cons_append, List.append_assoc, kidsOf_nd] <;> rfl) hm

theorem y_285 {n : Nat} {c0 : Tree} {w0 : List Tok} {u1 : Tok} {u2 : Tok} {c3 : Tree} {w3 : List Tok} {u4 : Tok} (h0 : Y N.«value_brackets» c0 w0 u1.type) (k1 : u1.type = T.«LSQB») (k2 : u2.type = T.«QMARK») (h3 : Y N.«value_brackets» c3 w3 u4.type) (k4 : u4.type = T.«RSQB») :
    Y N.«index_accessor» (nd "index_accessor" (c0 :: [c3])) (w0 ++ (u1 :: (u2 :: (w3 ++ [u4])))) n :=
  Y.node ⟨N.«index_accessor», [N.«value_brackets», T.«LSQB», T.«QMARK», N.«value_brackets», T.«RSQB»], "index_accessor", false, [(0, false, 0), (3, false, 0)], 0⟩ (by decide +kernel) rfl (by decide) (free_plain (by decide) (by decide)) (cs := [c0, tk T.«LSQB» u1.text, tk T.«QMARK» u2.text, c3, tk T.«RSQB» u4.text]) (by have : YL [N.«value_brackets», T.«LSQB», T.«QMARK», N.«value_brackets», T.«RSQB»] [c0, tk T.«LSQB» u1.text, tk T.«QMARK» u2.text, c3, tk T.«RSQB» u4.text] (w0 ++ (u1 :: (u2 :: (w3 ++ (u4 :: ([])))))) n := (.nt (by simpa only [List.append_assoc, List.nil_append, List.append_nil, List.cons_append, nextT_append, nextT_cons, nextT_nil] using h0) (.tok k1 (by decide) (.tok k2 (by decide) (.nt (by simpa only [List.append_assoc, List.nil_append, List.append_nil, List.cons_append, nextT_append, nextT_cons, nextT_nil] using h3) (.tok k4 (by decide) .nil) (fun h h' => by first | exact absurd h (by decide) | exact absurd h' (by decide))))) (fun h h' => by first | exact absurd h (by decide) | exact absurd h' (by decide))); simpa only [List.append_assoc, List.nil_append, List.append_nil, List.cons_append, nextT_append, nextT_cons, nextT_nil] using this) (by simp only [keepKids', List.flatMap_cons, List.flatMap_nil, List.replicate_zero, List.replicate_succ, List.getElem?_cons_zero, List.getElem?_cons_succ, Bool.false_eq_true, if_true, if_false, List.append_nil, List.nil_append, List.cons_append, List.append_assoc, kidsOf_nd] <;> rfl)

theorem y_288 {n : Nat} {c0 : Tree} {w0 : List Tok} {u1 : Tok} {u2 : Tok} {u3 : Tok} {t4 : List Tree} {w4 : List Tok} {u5 : Tok} (h0 : Y N.«value_brackets» c0 w0 u1.type) (k1 : u1.type = T.«DOT») (k2 : u2.type = T.«LIST_FUNC_NAME») (k3 : u3.type = T.«LPAR») (h4 : Y N.«__function_accessor_plus_13» (nd "__function_accessor_plus_13" t4) w4 u5.type) (k5 : u5.type = T.«RPAR») :
    Y N.«function_accessor» (nd "function_accessor" (c0 :: (tk T.«LIST_FUNC_NAME» u2.text :: t4))) (w0 ++ (u1 :: (u2 :: (u3 :: (w4 ++ [u5]))))) n :=
  Y.node ⟨N.«function_accessor», [N.«value_brackets», T.«DOT», T.«LIST_FUNC_NAME», T.«LPAR», N.«__function_accessor_plus_13», T.«RPAR»], "function_accessor", false, [(0, false, 0), (2, false, 0), (4, true, 0)], 0⟩ (by decide +kernel) rfl (by decide) (free_plain (by decide) (by decide)) (cs := [c0, tk T.«DOT» u1.text, tk T.«LIST_FUNC_NAME» u2.text, tk T.«LPAR» u3.text, nd "__function_accessor_plus_13" t4, tk T.«RPAR» u5.text]) (by have : YL [N.«value_brackets», T.«DOT», T.«LIST_FUNC_NAME», T.«LPAR», N.«__function_accessor_plus_13», T.«RPAR»] [c0, tk T.«DOT» u1.text, tk T.«LIST_FUNC_NAME» u2.text, tk T.«LPAR» u3.text, nd "__function_accessor_plus_13" t4, tk T.«RPAR» u5.text] (w0 ++ (u1 :: (u2 :: (u3 :: (w4 ++ (u5 :: ([]))))))) n := (.nt (by simpa only [List.append_assoc, List.nil_append, List.append_nil, List.cons_append, nextT_append, nextT_cons, nextT_nil] using h0) (.tok k1 (by decide) (.tok k2 (by decide) (.tok k3 (by decide) (.nt (by simpa only [List.append_assoc, List.nil_append, List.append_nil, List.cons_append, nextT_append, nextT_cons, nextT_nil] using h4) (.tok k5 (by decide) .nil) (fun h h' => by first | exact absurd h (by decide) | exact absurd h' (by decide)))))) (fun h h' => by first | exact absurd h (by decide) | exact absurd h' (by decide))); simpa only [List.append_assoc, List.nil_append, List.append_nil, List.cons_append, nextT_append, nextT_cons, nextT_nil] using this) (by simp only [keepKids', List.flatMap_cons, List.flatMap_nil, List.replicate_zero, List.replicate_succ, List.getElem?_cons_zero, List.getElem?_cons_succ, Bool.false_eq_true, if_true, if_false, List.append_nil, List.nil_append, List.cons_append, List.append_assoc, kidsOf_nd] <;> rfl)

theorem y_291 {n : Nat} {c0 : Tree} {w0 : List Tok} {u1 : Tok} {c2 : Tree} {w2 : List Tok} (h0 : Y N.«value_brackets» c0 w0 u1.type) (k1 : u1.type = T.«DOT») (h2 : Y N.«value_brackets» c2 w2 n) (hn : NoInfix n) :
    Y N.«property_accessor» (nd "property_accessor" (c0 :: [c2])) (w0 ++ (u1 :: w2)) n :=
  Y.node ⟨N.«property_accessor», [N.«value_brackets», T.«DOT», N.«value_brackets»], "property_accessor", false, [(0, false, 0), (2, false, 0)], 0⟩ (by decide +kernel) rfl (by decide) (free_infix (by decide) hn) (cs := [c0, tk T.«DOT» u1.text, c2]) (by have : YL [N.«value_brackets», T.«DOT», N.«value_brackets»] [c0, tk T.«DOT» u1.text, c2] (w0 ++ (u1 :: (w2 ++ ([])))) n := (.nt (by simpa only [List.append_assoc, List.nil_append, List.append_nil, List.cons_append, nextT_append, nextT_cons, nextT_nil] using h0) (.tok k1 (by decide) (.nt (by simpa only [List.append_assoc, List.nil_append, List.append_nil, List.cons_append, nextT_append, nextT_cons, nextT_nil] using h2) .nil (fun h h' => by first | exact absurd h (by decide) | exact absurd h' (by decide)))) (fun h h' => by first | exact absurd h (by decide) | exact absurd h' (by decide))); simpa only [List.append_assoc, List.nil_append, List.append_nil, List.cons_append, nextT_append, nextT_cons, nextT_nil] using this) (by simp only [keepKids', List.flatMap_cons, List.flatMap_nil, List.replicate_zero, List.replicate_succ, List.getElem?_cons_zero, List.getElem?_cons_succ, Bool.false_eq_true, if_true, if_false, List.append_nil, List.nil_append, List.cons_append, List.append_assoc, kidsOf_nd] <;> rfl)

theorem y_294 {n : Nat} {u0 : Tok} (k0 : u0.type = T.«_CPP_COMMENT_NL») :
    Y N.«__start_star_0» (nd "__start_star_0" []) [u0] n :=
  Y.node ⟨N.«__start_star_0», [T.«_CPP_COMMENT_NL»], "__start_star_0", false, [], 0⟩ (by decide +kernel) rfl (by decide) (free_plain (by decide) (by decide)) (cs := [tk T.«_CPP_COMMENT_NL» u0.text]) (by have : YL [T.«_CPP_COMMENT_NL»] [tk T.«_CPP_COMMENT_NL» u0.text] (u0 :: ([])) n := (.tok k0 (by decide) .nil); simpa only [List.append_assoc, List.nil_append, List.append_nil, List.cons_append, nextT_append, nextT_cons, nextT_nil] using this) (by simp only [keepKids', List.flatMap_cons, List.flatMap_nil, List.replicate_zero, List.replicate_succ, List.getElem?_cons_zero, List.getElem?_cons_succ, Bool.false_eq_true, if_true, if_false, List.append_nil, List.nil_append, List.cons_append, List.append_assoc, kidsOf_nd] <;> rfl)

theorem y_297 {n : Nat} {t0 : List Tree} {w0 : List Tok} {u1 : Tok} (h0 : Y N.«__start_star_0» (nd "__start_star_0" t0) w0 u1.type) (k1 : u1.type = T.«_CPP_COMMENT_NL») :
    Y N.«__start_star_0» (nd "__start_star_0" t0) (w0 ++ [u1]) n :=
  Y.node ⟨N.«__start_star_0», [N.«__start_star_0», T.«_CPP_COMMENT_NL»], "__start_star_0", false, [(0, true, 0)], 0⟩ (by decide +kernel) rfl (by decide) (free_plain (by decide) (by decide)) (cs := [nd "__start_star_0" t0, tk T.«_CPP_COMMENT_NL» u1.text]) (by have : YL [N.«__start_star_0», T.«_CPP_COMMENT_NL»] [nd "__start_star_0" t0, tk T.«_CPP_COMMENT_NL» u1.text] (w0 ++ (u1 :: ([]))) n := (.nt (by simpa only [List.append_assoc, List.nil_append, List.append_nil, List.cons_append, nextT_append, nextT_cons, nextT_nil] using h0) (.tok k1 (by decide) .nil) (fun h h' => by first | exact absurd h (by decide) | exact absurd h' (by decide))); simpa only [List.append_assoc, List.nil_append, List.append_nil, List.cons_append, nextT_append, nextT_cons, nextT_nil] using this) (by simp only [keepKids', List.flatMap_cons, List.flatMap_nil, List.replicate_zero, List.replicate_succ, List.getElem?_cons_zero, List.getElem?_cons_succ, Bool.false_eq_true, if_true, if_false, List.append_nil, List.nil_append, List.cons_append, List.append_assoc, kidsOf_nd] <;> rfl)

theorem y_300 {n : Nat} {u0 : Tok} {u1 : Tok} {c2 : Tree} {w2 : List Tok} (k0 : u0.type = T.«COMMA») (k1 : u1.type = T.«STRING») (h2 : Y N.«data_type» c2 w2 n) :
    Y N.«___func_statement_star_2» (nd "___func_statement_star_2" (tk T.«STRING» u1.text :: [c2])) (u0 :: (u1 :: w2)) n :=
  Y.node ⟨N.«___func_statement_star_2», [T.«COMMA», T.«STRING», N.«data_type»], "___func_statement_star_2", false, [(1, false, 0), (2, false, 0)], 0⟩ (by decide +kernel) rfl (by decide) (free_plain (by decide) (by decide)) (cs := [tk T.«COMMA» u0.text, tk T.«STRING» u1.text, c2]) (by have : YL [T.«COMMA», T.«STRING», N.«data_type»] [tk T.«COMMA» u0.text, tk T.«STRING» u1.text, c2] (u0 :: (u1 :: (w2 ++ ([])))) n := (.tok k0 (by decide) (.tok k1 (by decide) (.nt (by simpa only [List.append_assoc, List.nil_append, List.append_nil, List.cons_append, nextT_append, nextT_cons, nextT_nil] using h2) .nil (fun h h' => by first | exact absurd h (by decide) | exact absurd h' (by decide))))); simpa only [List.append_assoc, List.nil_append, List.append_nil, List.cons_append, nextT_append, nextT_cons, nextT_nil] using this) (by simp only [keepKids', List.flatMap_cons, List.flatMap_nil, List.replicate_zero, List.replicate_succ, List.getElem?_cons_zero, List.getElem?_cons_succ, Bool.false_eq_true, if_true, if_false, List.append_nil, List.nil_append, List.cons_append, List.append_assoc, kidsOf_nd] <;> rfl)

theorem y_303 {n : Nat} {t0 : List Tree} {w0 : List Tok} {u1 : Tok} (h0 : Y N.«__child_resource_plus_3» (nd "__child_resource_plus_3" t0) w0 u1.type) (k1 : u1.type = T.«_CPP_COMMENT_NL») :
    Y N.«__child_resource_plus_3» (nd "__child_resource_plus_3" t0) (w0 ++ [u1]) n :=
  Y.node ⟨N.«__child_resource_plus_3», [N.«__child_resource_plus_3», T.«_CPP_COMMENT_NL»], "__child_resource_plus_3", false, [(0, true, 0)], 0⟩ (by decide +kernel) rfl (by decide) (free_plain (by decide) (by decide)) (cs := [nd "__child_resource_plus_3" t0, tk T.«_CPP_COMMENT_NL» u1.text]) (by have : YL [N.«__child_resource_plus_3», T.«_CPP_COMMENT_NL»] [nd "__child_resource_plus_3" t0, tk T.«_CPP_COMMENT_NL» u1.text] (w0 ++ (u1 :: ([]))) n := (.nt (by simpa only [List.append_assoc, List.nil_append, List.append_nil, List.cons_append, nextT_append, nextT_cons, nextT_nil] using h0) (.tok k1 (by decide) .nil) (fun h h' => by first | exact absurd h (by decide) | exact absurd h' (by decide))); simpa only [List.append_assoc, List.nil_append, List.append_nil, List.cons_append, nextT_append, nextT_cons, nextT_nil] using this) (by simp only [keepKids', List.flatMap_cons, List.flatMap_nil, List.replicate_zero, List.replicate_succ, List.getElem?_cons_zero, List.getElem?_cons_succ, Bool.false_eq_true, if_true, if_false, List.append_nil, List.nil_append, List.cons_append, List.append_assoc, kidsOf_nd] <;> rfl)

theorem y_306 {n : Nat} {c0 : Tree} {w0 : List Tok} (h0 : Y N.«array_suffix» c0 w0 n) :
    Y N.«__data_type_star_5» (nd "__data_type_star_5" [c0]) w0 n :=
  Y.node ⟨N.«__data_type_star_5», [N.«array_suffix»], "__data_type_star_5", false, [(0, false, 0)], 0⟩ (by decide +kernel) rfl (by decide) (free_plain (by decide) (by decide)) (cs := [c0]) (by have : YL [N.«array_suffix»] [c0] (w0 ++ ([])) n := (.nt (by simpa only [List.append_assoc, List.nil_append, List.append_nil, List.cons_append, nextT_append, nextT_cons, nextT_nil] using h0) .nil (fun h h' => by first | exact absurd h (by decide) | exact absurd h' (by decide))); simpa only [List.append_assoc, List.nil_append, List.append_nil, List.cons_append, nextT_append, nextT_cons, nextT_nil] using this) (by simp only [keepKids', List.flatMap_cons, List.flatMap_nil, List.replicate_zero, List.replicate_succ, List.getElem?_cons_zero, List.getElem?_cons_succ, Bool.false_eq_true, if_true, if_false, List.append_nil, List.nil_append, List.cons_append, List.append_assoc, kidsOf_nd] <;> rfl)

theorem y_309 {n : Nat} {t0 : List Tree} {w0 : List Tok} {u1 : Tok} {c2 : Tree} {w2 : List Tok} (h0 : Y N.«__union_type_plus_6» (nd "__union_type_plus_6" t0) w0 u1.type) (k1 : u1.type = T.«VBAR») (h2 : Y N.«data_type» c2 w2 n) :
    Y N.«__union_type_plus_6» (nd "__union_type_plus_6" (t0 ++ [c2])) (w0 ++ (u1 :: w2)) n :=
  Y.node ⟨N.«__union_type_plus_6», [N.«__union_type_plus_6», T.«VBAR», N.«data_type»], "__union_type_plus_6", false, [(0, true, 0), (2, false, 0)], 0⟩ (by decide +kernel) rfl (by decide) (free_plain (by decide) (by decide)) (cs := [nd "__union_type_plus_6" t0, tk T.«VBAR» u1.text, c2]) (by have : YL [N.«__union_type_plus_6», T.«VBAR», N.«data_type»] [nd "__union_type_plus_6" t0, tk T.«VBAR» u1.text, c2] (w0 ++ (u1 :: (w2 ++ ([])))) n := (.nt (by simpa only [List.append_assoc, List.nil_append, List.append_nil, List.cons_append, nextT_append, nextT_cons, nextT_nil] using h0) (.tok k1 (by decide) (.nt (by simpa only [List.append_assoc, List.nil_append, List.append_nil, List.cons_append, nextT_append, nextT_cons, nextT_nil] using h2) .nil (fun h h' => by first | exact absurd h (by decide) | exact absurd h' (by decide)))) (fun h h' => by first | exact absurd h (by decide) | exact absurd h' (by decide))); simpa only [List.append_assoc, List.nil_append, List.append_nil, List.cons_append, nextT_append, nextT_cons, nextT_nil] using this) (by simp only [keepKids', List.flatMap_cons, List.flatMap_nil, List.replicate_zero, List.replicate_succ, List.getElem?_cons_zero, List.getElem?_cons_succ, Bool.false_eq_true, if_true, if_false, List.append_nil, List.nil_append, List.cons_append, List.append_assoc, kidsOf_nd] <;> rfl)

theorem y_312 {n : Nat} {c0 : Tree} {w0 : List Tok} {t1 : List Tree} {w1 : List Tok} {t2 : List Tree} {w2 : List Tok} (h0 : Y N.«value_brackets» c0 w0 (nextT w1 (nextT w2 n))) (h1 : Y N.«__array_star_7» (nd "__array_star_7" t1) w1 (nextT w2 n)) (h2 : Y N.«__child_resource_plus_3» (nd "__child_resource_plus_3" t2) w2 n) :
    Y N.«__array_star_8» (nd "__array_star_8" (c0 :: (t1 ++ t2))) (w0 ++ (w1 ++ w2)) n :=
  Y.node ⟨N.«__array_star_8», [N.«value_brackets», N.«__array_star_7», N.«__child_resource_plus_3»], "__array_star_8", false, [(0, false, 0), (1, true, 0), (2, true, 0)], 0⟩ (by decide +kernel) rfl (by decide) (free_plain (by decide) (by decide)) (cs := [c0, nd "__array_star_7" t1, nd "__child_resource_plus_3" t2]) (by have : YL [N.«value_brackets», N.«__array_star_7», N.«__child_resource_plus_3»] [c0, nd "__array_star_7" t1, nd "__child_resource_plus_3" t2] (w0 ++ (w1 ++ (w2 ++ ([])))) n := (.nt (by simpa only [List.append_assoc, List.nil_append, List.append_nil, List.cons_append, nextT_append, nextT_cons, nextT_nil] using h0) (.nt (by simpa only [List.append_assoc, List.nil_append, List.append_nil, List.cons_append, nextT_append, nextT_cons, nextT_nil] using h1) (.nt (by simpa only [List.append_assoc, List.nil_append, List.append_nil, List.cons_append, nextT_append, nextT_cons, nextT_nil] using h2) .nil (fun h h' => by first | exact absurd h (by decide) | exact absurd h' (by decide))) (fun h h' => by first | exact absurd h (by decide) | exact absurd h' (by decide))) (fun h h' => by first | exact absurd h (by decide) | exact absurd h' (by decide))); simpa only [List.append_assoc, List.nil_append, List.append_nil, List.cons_append, nextT_append, nextT_cons, nextT_nil] using this) (by simp only [keepKids', List.flatMap_cons, List.flatMap_nil, List.replicate_zero, List.replicate_succ, List.getElem?_cons_zero, List.getElem?_cons_succ, Bool.false_eq_true, if_true, if_false, List.append_nil, List.nil_append, List.cons_append, List.append_assoc, kidsOf_nd] <;> rfl)

theorem y_315 {n : Nat} {c0 : Tree} {w0 : List Tok} (h0 : Y N.«value_brackets» c0 w0 n) (hn : NoInfix n) :
    Y N.«__array_star_8» (nd "__array_star_8" [c0]) w0 n :=
  Y.node ⟨N.«__array_star_8», [N.«value_brackets»], "__array_star_8", false, [(0, false, 0)], 0⟩ (by decide +kernel) rfl (by decide) (free_infix (by decide) hn) (cs := [c0]) (by have : YL [N.«value_brackets»] [c0] (w0 ++ ([])) n := (.nt (by simpa only [List.append_assoc, List.nil_append, List.append_nil, List.cons_append, nextT_append, nextT_cons, nextT_nil] using h0) .nil (fun h h' => by first | exact absurd h (by decide) | exact absurd h' (by decide))); simpa only [List.append_assoc, List.nil_append, List.append_nil, List.cons_append, nextT_append, nextT_cons, nextT_nil] using this) (by simp only [keepKids', List.flatMap_cons, List.flatMap_nil, List.replicate_zero, List.replicate_succ, List.getElem?_cons_zero, List.getElem?_cons_succ, Bool.false_eq_true, if_true, if_false, List.append_nil, List.nil_append, List.cons_append, List.append_assoc, kidsOf_nd] <;> rfl)

theorem y_318 {n : Nat} {t0 : List Tree} {w0 : List Tok} {c1 : Tree} {w1 : List Tok} {t2 : List Tree} {w2 : List Tok} (h0 : Y N.«__array_star_8» (nd "__array_star_8" t0) w0 (nextT w1 (nextT w2 n))) (h1 : Y N.«value_brackets» c1 w1 (nextT w2 n)) (h2 : Y N.«__child_resource_plus_3» (nd "__child_resource_plus_3" t2) w2 n) :
    Y N.«__array_star_8» (nd "__array_star_8" (t0 ++ (c1 :: t2))) (w0 ++ (w1 ++ w2)) n :=
  Y.node ⟨N.«__array_star_8», [N.«__array_star_8», N.«value_brackets», N.«__child_resource_plus_3»], "__array_star_8", false, [(0, true, 0), (1, false, 0), (2, true, 0)], 0⟩ (by decide +kernel) rfl (by decide) (free_plain (by decide) (by decide)) (cs := [nd "__array_star_8" t0, c1, nd "__child_resource_plus_3" t2]) (by have : YL [N.«__array_star_8», N.«value_brackets», N.«__child_resource_plus_3»] [nd "__array_star_8" t0, c1, nd "__child_resource_plus_3" t2] (w0 ++ (w1 ++ (w2 ++ ([])))) n := (.nt (by simpa only [List.append_assoc, List.nil_append, List.append_nil, List.cons_append, nextT_append, nextT_cons, nextT_nil] using h0) (.nt (by simpa only [List.append_assoc, List.nil_append, List.append_nil, List.cons_append, nextT_append, nextT_cons, nextT_nil] using h1) (.nt (by simpa only [List.append_assoc, List.nil_append, List.append_nil, List.cons_append, nextT_append, nextT_cons, nextT_nil] using h2) .nil (fun h h' => by first | exact absurd h (by decide) | exact absurd h' (by decide))) (fun h h' => by first | exact absurd h (by decide) | exact absurd h' (by decide))) (fun h h' => by first | exact absurd h (by decide) | exact absurd h' (by decide))); simpa only [List.append_assoc, List.nil_append, List.append_nil, List.cons_append, nextT_append, nextT_cons, nextT_nil] using this) (by simp only [keepKids', List.flatMap_cons, List.flatMap_nil, List.replicate_zero, List.replicate_succ, List.getElem?_cons_zero, List.getElem?_cons_succ, Bool.false_eq_true, if_true, if_false, List.append_nil, List.nil_append, List.cons_append, List.append_assoc, kidsOf_nd] <;> rfl)

theorem y_321 {n : Nat} {t0 : List Tree} {w0 : List Tok} {u1 : Tok} {c2 : Tree} {w2 : List Tok} (h0 : Y N.«__object_star_9» (nd "__object_star_9" t0) w0 u1.type) (k1 : u1.type = T.«COMMA») (h2 : Y N.«pair» c2 w2 n) :
    Y N.«__object_star_9» (nd "__object_star_9" (t0 ++ [c2])) (w0 ++ (u1 :: w2)) n :=
  Y.node ⟨N.«__object_star_9», [N.«__object_star_9», T.«COMMA», N.«pair»], "__object_star_9", false, [(0, true, 0), (2, false, 0)], 0⟩ (by decide +kernel) rfl (by decide) (free_plain (by decide) (by decide)) (cs := [nd "__object_star_9" t0, tk T.«COMMA» u1.text, c2]) (by have : YL [N.«__object_star_9», T.«COMMA», N.«pair»] [nd "__object_star_9" t0, tk T.«COMMA» u1.text, c2] (w0 ++ (u1 :: (w2 ++ ([])))) n := (.nt (by simpa only [List.append_assoc, List.nil_append, List.append_nil, List.cons_append, nextT_append, nextT_cons, nextT_nil] using h0) (.tok k1 (by decide) (.nt (by simpa only [List.append_assoc, List.nil_append, List.append_nil, List.cons_append, nextT_append, nextT_cons, nextT_nil] using h2) .nil (fun h h' => by first | exact absurd h (by decide) | exact absurd h' (by decide)))) (fun h h' => by first | exact absurd h (by decide) | exact absurd h' (by decide))); simpa only [List.append_assoc, List.nil_append, List.append_nil, List.cons_append, nextT_append, nextT_cons, nextT_nil] using this) (by simp only [keepKids', List.flatMap_cons, List.flatMap_nil, List.replicate_zero, List.replicate_succ, List.getElem?_cons_zero, List.getElem?_cons_succ, Bool.false_eq_true, if_true, if_false, List.append_nil, List.nil_append, List.cons_append, List.append_assoc, kidsOf_nd] <;> rfl)

theorem y_324 {n : Nat} {c0 : Tree} {w0 : List Tok} {t1 : List Tree} {w1 : List Tok} (h0 : Y N.«pair» c0 w0 (nextT w1 n)) (h1 : Y N.«__child_resource_plus_3» (nd "__child_resource_plus_3" t1) w1 n) :
    Y N.«__object_star_10» (nd "__object_star_10" (c0 :: t1)) (w0 ++ w1) n :=
  Y.node ⟨N.«__object_star_10», [N.«pair», N.«__child_resource_plus_3»], "__object_star_10", false, [(0, false, 0), (1, true, 0)], 0⟩ (by decide +kernel) rfl (by decide) (free_plain (by decide) (by decide)) (cs := [c0, nd "__child_resource_plus_3" t1]) (by have : YL [N.«pair», N.«__child_resource_plus_3»] [c0, nd "__child_resource_plus_3" t1] (w0 ++ (w1 ++ ([]))) n := (.nt (by simpa only [List.append_assoc, List.nil_append, List.append_nil, List.cons_append, nextT_append, nextT_cons, nextT_nil] using h0) (.nt (by simpa only [List.append_assoc, List.nil_append, List.append_nil, List.cons_append, nextT_append, nextT_cons, nextT_nil] using h1) .nil (fun h h' => by first | exact absurd h (by decide) | exact absurd h' (by decide))) (fun h h' => by first | exact absurd h (by decide) | exact absurd h' (by decide))); simpa only [List.append_assoc, List.nil_append, List.append_nil, List.cons_append, nextT_append, nextT_cons, nextT_nil] using this) (by simp only [keepKids', List.flatMap_cons, List.flatMap_nil, List.replicate_zero, List.replicate_succ, List.getElem?_cons_zero, List.getElem?_cons_succ, Bool.false_eq_true, if_true, if_false, List.append_nil, List.nil_append, List.cons_append, List.append_assoc, kidsOf_nd] <;> rfl)

theorem y_327 {n : Nat} {c0 : Tree} {w0 : List Tok} (h0 : Y N.«child_resource» c0 w0 n) :
    Y N.«__object_star_10» (nd "__object_star_10" [c0]) w0 n :=
  Y.node ⟨N.«__object_star_10», [N.«child_resource»], "__object_star_10", false, [(0, false, 0)], 0⟩ (by decide +kernel) rfl (by decide) (free_plain (by decide) (by decide)) (cs := [c0]) (by have : YL [N.«child_resource»] [c0] (w0 ++ ([])) n := (.nt (by simpa only [List.append_assoc, List.nil_append, List.append_nil, List.cons_append, nextT_append, nextT_cons, nextT_nil] using h0) .nil (fun h h' => by first | exact absurd h (by decide) | exact absurd h' (by decide))); simpa only [List.append_assoc, List.nil_append, List.append_nil, List.cons_append, nextT_append, nextT_cons, nextT_nil] using this) (by simp only [keepKids', List.flatMap_cons, List.flatMap_nil, List.replicate_zero, List.replicate_succ, List.getElem?_cons_zero, List.getElem?_cons_succ, Bool.false_eq_true, if_true, if_false, List.append_nil, List.nil_append, List.cons_append, List.append_assoc, kidsOf_nd] <;> rfl)

theorem y_330 {n : Nat} {t0 : List Tree} {w0 : List Tok} {c1 : Tree} {w1 : List Tok} {t2 : List Tree} {w2 : List Tok} (h0 : Y N.«__object_star_10» (nd "__object_star_10" t0) w0 (nextT w1 (nextT w2 n))) (h1 : Y N.«pair» c1 w1 (nextT w2 n)) (h2 : Y N.«__child_resource_plus_3» (nd "__child_resource_plus_3" t2) w2 n) :
    Y N.«__object_star_10» (nd "__object_star_10" (t0 ++ (c1 :: t2))) (w0 ++ (w1 ++ w2)) n :=
  Y.node ⟨N.«__object_star_10», [N.«__object_star_10», N.«pair», N.«__child_resource_plus_3»], "__object_star_10", false, [(0, true, 0), (1, false, 0), (2, true, 0)], 0⟩ (by decide +kernel) rfl (by decide) (free_plain (by decide) (by decide)) (cs := [nd "__object_star_10" t0, c1, nd "__child_resource_plus_3" t2]) (by have : YL [N.«__object_star_10», N.«pair», N.«__child_resource_plus_3»] [nd "__object_star_10" t0, c1, nd "__child_resource_plus_3" t2] (w0 ++ (w1 ++ (w2 ++ ([])))) n := (.nt (by simpa only [List.append_assoc, List.nil_append, List.append_nil, List.cons_append, nextT_append, nextT_cons, nextT_nil] using h0) (.nt (by simpa only [List.append_assoc, List.nil_append, List.append_nil, List.cons_append, nextT_append, nextT_cons, nextT_nil] using h1) (.nt (by simpa only [List.append_assoc, List.nil_append, List.append_nil, List.cons_append, nextT_append, nextT_cons, nextT_nil] using h2) .nil (fun h h' => by first | exact absurd h (by decide) | exact absurd h' (by decide))) (fun h h' => by first | exact absurd h (by decide) | exact absurd h' (by decide))) (fun h h' => by first | exact absurd h (by decide) | exact absurd h' (by decide))); simpa only [List.append_assoc, List.nil_append, List.append_nil, List.cons_append, nextT_append, nextT_cons, nextT_nil] using this) (by simp only [keepKids', List.flatMap_cons, List.flatMap_nil, List.replicate_zero, List.replicate_succ, List.getElem?_cons_zero, List.getElem?_cons_succ, Bool.false_eq_true, if_true, if_false, List.append_nil, List.nil_append, List.cons_append, List.append_assoc, kidsOf_nd] <;> rfl)

theorem y_333 {n : Nat} {t0 : List Tree} {w0 : List Tok} {c1 : Tree} {w1 : List Tok} (h0 : Y N.«__object_star_10» (nd "__object_star_10" t0) w0 (nextT w1 n)) (h1 : Y N.«child_resource» c1 w1 n) :
    Y N.«__object_star_10» (nd "__object_star_10" (t0 ++ [c1])) (w0 ++ w1) n :=
  Y.node ⟨N.«__object_star_10», [N.«__object_star_10», N.«child_resource»], "__object_star_10", false, [(0, true, 0), (1, false, 0)], 0⟩ (by decide +kernel) rfl (by decide) (free_plain (by decide) (by decide)) (cs := [nd "__object_star_10" t0, c1]) (by have : YL [N.«__object_star_10», N.«child_resource»] [nd "__object_star_10" t0, c1] (w0 ++ (w1 ++ ([]))) n := (.nt (by simpa only [List.append_assoc, List.nil_append, List.append_nil, List.cons_append, nextT_append, nextT_cons, nextT_nil] using h0) (.nt (by simpa only [List.append_assoc, List.nil_append, List.append_nil, List.cons_append, nextT_append, nextT_cons, nextT_nil] using h1) .nil (fun h h' => by first | exact absurd h (by decide) | exact absurd h' (by decide))) (fun h h' => by first | exact absurd h (by decide) | exact absurd h' (by decide))); simpa only [List.append_assoc, List.nil_append, List.append_nil, List.cons_append, nextT_append, nextT_cons, nextT_nil] using this) (by simp only [keepKids', List.flatMap_cons, List.flatMap_nil, List.replicate_zero, List.replicate_succ, List.getElem?_cons_zero, List.getElem?_cons_succ, Bool.false_eq_true, if_true, if_false, List.append_nil, List.nil_append, List.cons_append, List.append_assoc, kidsOf_nd] <;> rfl)

theorem y_336 {n : Nat} {u0 : Tok} {u1 : Tok} {c2 : Tree} {w2 : List Tok} (k0 : u0.type = T.«COMMA») (k1 : u1.type = T.«_CPP_COMMENT_NL») (h2 : Y N.«value_brackets» c2 w2 n) (hn : NoInfix n) :
    Y N.«__function_star_12» (nd "__function_star_12" [c2]) (u0 :: (u1 :: w2)) n :=
  Y.node ⟨N.«__function_star_12», [T.«COMMA», T.«_CPP_COMMENT_NL», N.«value_brackets»], "__function_star_12", false, [(2, false, 0)], 0⟩ (by decide +kernel) rfl (by decide) (free_infix (by decide) hn) (cs := [tk T.«COMMA» u0.text, tk T.«_CPP_COMMENT_NL» u1.text, c2]) (by have : YL [T.«COMMA», T.«_CPP_COMMENT_NL», N.«value_brackets»] [tk T.«COMMA» u0.text, tk T.«_CPP_COMMENT_NL» u1.text, c2] (u0 :: (u1 :: (w2 ++ ([])))) n := (.tok k0 (by decide) (.tok k1 (by decide) (.nt (by simpa only [List.append_assoc, List.nil_append, List.append_nil, List.cons_append, nextT_append, nextT_cons, nextT_nil] using h2) .nil (fun h h' => by first | exact absurd h (by decide) | exact absurd h' (by decide))))); simpa only [List.append_assoc, List.nil_append, List.append_nil, List.cons_append, nextT_append, nextT_cons, nextT_nil] using this) (by simp only [keepKids', List.flatMap_cons, List.flatMap_nil, List.replicate_zero, List.replicate_succ, List.getElem?_cons_zero, List.getElem?_cons_succ, Bool.false_eq_true, if_true, if_false, List.append_nil, List.nil_append, List.cons_append, List.append_assoc, kidsOf_nd] <;> rfl)

theorem y_339 {n : Nat} {t0 : List Tree} {w0 : List Tok} {u1 : Tok} {c2 : Tree} {w2 : List Tok} (h0 : Y N.«__function_star_12» (nd "__function_star_12" t0) w0 u1.type) (k1 : u1.type = T.«COMMA») (h2 : Y N.«value_brackets» c2 w2 n) (hn : NoInfix n) :
    Y N.«__function_star_12» (nd "__function_star_12" (t0 ++ [c2])) (w0 ++ (u1 :: w2)) n :=
  Y.node ⟨N.«__function_star_12», [N.«__function_star_12», T.«COMMA», N.«value_brackets»], "__function_star_12", false, [(0, true, 0), (2, false, 0)], 0⟩ (by decide +kernel) rfl (by decide) (free_infix (by decide) hn) (cs := [nd "__function_star_12" t0, tk T.«COMMA» u1.text, c2]) (by have : YL [N.«__function_star_12», T.«COMMA», N.«value_brackets»] [nd "__function_star_12" t0, tk T.«COMMA» u1.text, c2] (w0 ++ (u1 :: (w2 ++ ([])))) n := (.nt (by simpa only [List.append_assoc, List.nil_append, List.append_nil, List.cons_append, nextT_append, nextT_cons, nextT_nil] using h0) (.tok k1 (by decide) (.nt (by simpa only [List.append_assoc, List.nil_append, List.append_nil, List.cons_append, nextT_append, nextT_cons, nextT_nil] using h2) .nil (fun h h' => by first | exact absurd h (by decide) | exact absurd h' (by decide)))) (fun h h' => by first | exact absurd h (by decide) | exact absurd h' (by decide))); simpa only [List.append_assoc, List.nil_append, List.append_nil, List.cons_append, nextT_append, nextT_cons, nextT_nil] using this) (by simp only [keepKids', List.flatMap_cons, List.flatMap_nil, List.replicate_zero, List.replicate_succ, List.getElem?_cons_zero, List.getElem?_cons_succ, Bool.false_eq_true, if_true, if_false, List.append_nil, List.nil_append, List.cons_append, List.append_assoc, kidsOf_nd] <;> rfl)

theorem y_342 {n : Nat} {t0 : List Tree} {w0 : List Tok} {u1 : Tok} {c2 : Tree} {w2 : List Tok} (h0 : Y N.«__function_accessor_plus_13» (nd "__function_accessor_plus_13" t0) w0 u1.type) (k1 : u1.type = T.«COMMA») (h2 : Y N.«value_brackets» c2 w2 n) (hn : NoInfix n) :
    Y N.«__function_accessor_plus_13» (nd "__function_accessor_plus_13" (t0 ++ [c2])) (w0 ++ (u1 :: w2)) n :=
  Y.node ⟨N.«__function_accessor_plus_13», [N.«__function_accessor_plus_13», T.«COMMA», N.«value_brackets»], "__function_accessor_plus_13", false, [(0, true, 0), (2, false, 0)], 0⟩ (by decide +kernel) rfl (by decide) (free_infix (by decide) hn) (cs := [nd "__function_accessor_plus_13" t0, tk T.«COMMA» u1.text, c2]) (by have : YL [N.«__function_accessor_plus_13», T.«COMMA», N.«value_brackets»] [nd "__function_accessor_plus_13" t0, tk T.«COMMA» u1.text, c2] (w0 ++ (u1 :: (w2 ++ ([])))) n := (.nt (by simpa only [List.append_assoc, List.nil_append, List.append_nil, List.cons_append, nextT_append, nextT_cons, nextT_nil] using h0) (.tok k1 (by decide) (.nt (by simpa only [List.append_assoc, List.nil_append, List.append_nil, List.cons_append, nextT_append, nextT_cons, nextT_nil] using h2) .nil (fun h h' => by first | exact absurd h (by decide) | exact absurd h' (by decide)))) (fun h h' => by first | exact absurd h (by decide) | exact absurd h' (by decide))); simpa only [List.append_assoc, List.nil_append, List.append_nil, List.cons_append, nextT_append, nextT_cons, nextT_nil] using this) (by simp only [keepKids', List.flatMap_cons, List.flatMap_nil, List.replicate_zero, List.replicate_succ, List.getElem?_cons_zero, List.getElem?_cons_succ, Bool.false_eq_true, if_true, if_false, List.append_nil, List.nil_append, List.cons_append, List.append_assoc, kidsOf_nd] <;> rfl)

end Pycep
