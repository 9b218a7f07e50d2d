import Verif.Py
import Verif.Functions
import Verif.Decorators
import Verif.Regex
import Verif.Terminals
import Verif.Grammar
import Verif.Braun
import Verif.Table
import Verif.Past
import Verif.Tree
import Verif.Lexer
import Verif.LR
import Verif.ModulePath
import Verif.Transformer
import Verif.Parser
import Verif.Derivation
import Verif.Proofs.TableCheck
import Verif.Proofs.TableCheck2
import Verif.Proofs.LRSound
import Verif.Proofs.RegexSound
import Verif.Spec.Text
import Verif.Spec.Ast
import Verif.Proofs.LexerSound
import Verif.Proofs.Unless
import Verif.Proofs.CoreTree
import Verif.Spec.Sem
import Verif.Proofs.Core
import Verif.Proofs.SemBase
import Verif.Proofs.SemExpr
import Verif.Proofs.SemDecl
import Verif.Spec.Syntax
import Verif.Proofs.SynDef
import Verif.Proofs.SynBase
import Verif.Proofs.SynRules0
import Verif.Proofs.SynRules1
import Verif.Proofs.SynRules2
import Verif.Proofs.SynRules3
import Verif.Proofs.Syn
import Verif.Proofs.EndToEnd
import Verif.Proofs.Shape
import Verif.Session
import Verif.Proofs.SemErr
import Verif.Proofs.Examples
import Verif.Spec.Path
import Verif.Props.Api
import Verif.Props.ApiProps
import Verif.Props.Result
import Verif.Spec.FunTable
import Verif.Proofs.FunTable
import Verif.Proofs.FunSpec
import Verif.Spec.Place
import Verif.Proofs.Place
import Verif.Spec.Nested
import Verif.Proofs.Nested
import Verif.Spec.Reported
import Verif.Proofs.Reported
import Verif.Props.Values
import Verif.Spec.DecoTable
import Verif.Props.Funcs
import Verif.Spec.Json
import Verif.Spec.Typing
import Verif.Proofs.Json
import Verif.Props.Plain
import Verif.Props.Methods
import Verif.Props.Names
import Verif.Props.Decls
import Verif.Spec.ModuleRef
import Verif.Proofs.ModuleRef
import Verif.Props.Modules
import Verif.Props.Lines
import Verif.Props.Text
import Verif.Props.Additive
import Verif.Props.Lined
import Verif.Props.Relayout
import Verif.Props.Typed
import Verif.Items
import Verif.Proofs.ItemCheck
import Verif.Proofs.LRComplete
import Verif.Proofs.ParseComplete
import Verif.Proofs.YieldBase
import Verif.Proofs.Yields0
import Verif.Proofs.Yields1
import Verif.Proofs.Yields2
import Verif.Spec.Clear
import Verif.Proofs.SynComplete
import Verif.Proofs.DecoComplete
import Verif.Proofs.DeclComplete
import Verif.Spec.Layout
import Verif.Proofs.RegexComplete
import Verif.Proofs.StateCheck
import Verif.Proofs.Scan
import Verif.Proofs.LexWords
import Verif.Proofs.LexMarks
import Verif.Proofs.LexBreaks
import Verif.Proofs.LexStrings
import Verif.Proofs.LexComplete
import Verif.Proofs.TreeInj
import Verif.Spec.Spells
import Verif.Props.Complete
import Verif.Spec.Render
import Verif.Proofs.RenderLayout
import Verif.Proofs.RenderGood
import Verif.Proofs.RenderSyn
import Verif.Props.Canonical
import Verif.Props.Chains
import Verif.Props.Blanks
import Verif.Spec.Literal
import Verif.Proofs.Literal
import Verif.Props.Printed
import Verif.Spec.Written
import Verif.Proofs.Written
import Verif.Props.Provenance
import Verif.Spec.Words
import Verif.Proofs.Words
import Verif.Props.Words
import Verif.Proofs.Down
import Verif.Proofs.Join
import Verif.Props.Join
import Verif.Props.Lalr
import Verif.SyntaxError
import Verif.Spec.SynErr
import Verif.Proofs.Viable
import Verif.Proofs.SynErr
import Verif.Props.SynErr
import Verif.Spec.Published
import Verif.Props.Published
import Verif.Spec.Faithful
import Verif.Proofs.FunInj
import Verif.Proofs.Faithful
import Verif.Props.Faithful
import Verif.LarkText
import Verif.LarkFile
import Verif.LarkRegex
import Verif.LarkGrammar
import Verif.LarkCompile
import Verif.LarkRules
import Verif.Spec.Ebnf
import Verif.Spec.LarkWords
import Verif.Proofs.Ebnf
import Verif.Proofs.LarkCheck
import Verif.Proofs.LarkTerms
import Verif.Proofs.LarkWords
import Verif.Props.GrammarFile
import Verif.Spec.Document
import Verif.Proofs.Document
import Verif.Proofs.Documents
import Verif.Props.Document
import Verif.Spec.Order
import Verif.Props.Order
import Verif.Heap.Basic
import Verif.Heap.Functions
import Verif.Heap.Decorators
import Verif.Heap.Transformer
import Verif.Heap.Rep
import Verif.Heap.Sim
import Verif.Heap.SimFunctions
import Verif.Heap.SimMethods
import Verif.Heap.SimResource
import Verif.Heap.SimTransform
import Verif.Heap.TreeShape
import Verif.Heap.SimParse
import Verif.Spec.Sharing
import Verif.Props.Sharing
import Verif.ReadText
import Verif.Spec.LineEnds
import Verif.Proofs.LineEnds
import Verif.Proofs.LineEndsParse
import Verif.Props.LineEnds
import Verif.Spec.Size
import Verif.Proofs.Size
import Verif.Proofs.SizeSyn
import Verif.Proofs.SizeDecl
import Verif.Props.Size
import Verif.Spec.PrintedTree
import Verif.Proofs.Pretty
import Verif.Proofs.PrettyAst
import Verif.Proofs.PrettyDecl
import Verif.Props.TreeText
import Verif.Expected
import Verif.Spec.Expected
import Verif.Proofs.Expected
import Verif.Props.Expected
import Verif.Spec.Edit
import Verif.Proofs.Edit
import Verif.Proofs.EditOk
import Verif.Props.Edit
import Verif.Spec.Possible
import Verif.Proofs.Possible
import Verif.Props.Possible
import Verif.Spec.Work
import Verif.Proofs.Work
import Verif.Props.Work
import Verif.Spec.Depth
import Verif.Proofs.Depth
import Verif.Proofs.DepthVal
import Verif.Props.Depth
import Verif.Spec.ArgTypes
import Verif.Proofs.ArgTypes
import Verif.Props.ArgTypes
import Verif.Proofs.Reserved
import Verif.Props.Reserved
import Verif.Spec.Data
import Verif.Props.Data
import Verif.Threads
import Verif.Props.Threads
import Verif.Props.Faults
import Verif.Spec.Idle
import Verif.Props.Tail
import Verif.Spec.Stray
import Verif.Props.Stray
import Verif.Props.Loops
import Verif.Props.Extents
import Verif.Props.Unclosed
import Verif.Spec.Brackets
import Verif.Proofs.Brackets
import Verif.Props.Brackets
import Verif.Spec.LineStart
import Verif.Proofs.LineStart
import Verif.Props.LineStart
import Verif.Props.Repeat
import Verif.ReadBytes
import Verif.Spec.Utf8
import Verif.Proofs.Utf8
import Verif.Props.Utf8
import Verif.Spec.Moved
import Verif.Props.Moved
import Verif.Props.Between
import Verif.Spec.Override
import Verif.Props.Override
import Verif.Spec.Sections
import Verif.Props.Sections
import Verif.Props.OverrideLines
