import Verif.Basic
import Verif.Conform.Builders
import Verif.Conform.DdlFmt
import Verif.Conform.DdlTests
import Verif.Conform.Dsl
import Verif.Conform.Exprs
import Verif.Conform.Fields
import Verif.Conform.Fmt
import Verif.Conform.Queries
import Verif.Conform.SakilaMysql
import Verif.Conform.SakilaPostgres
import Verif.Conform.SakilaSqlite
import Verif.Model.Builder
import Verif.Model.Calls
import Verif.Model.Catalog
import Verif.Model.Chain
import Verif.Model.Column
import Verif.Model.Command
import Verif.Model.Derived
import Verif.Model.Dialect
import Verif.Model.Effect
import Verif.Model.Examples
import Verif.Model.Expr
import Verif.Model.Fetch
import Verif.Model.Field
import Verif.Model.Filter
import Verif.Model.Format
import Verif.Model.GenName
import Verif.Model.Ident
import Verif.Model.Load
import Verif.Model.Logger
import Verif.Model.Machine
import Verif.Model.Meta
import Verif.Model.Migrate
import Verif.Model.Node
import Verif.Model.Pool
import Verif.Model.Quote
import Verif.Model.Reflect
import Verif.Model.Render
import Verif.Model.Run
import Verif.Model.Scan
import Verif.Model.Search
import Verif.Model.Send
import Verif.Model.SplitArgs
import Verif.Model.Sprintf
import Verif.Model.Stats
import Verif.Model.Tokenize
import Verif.Model.View
import Verif.Proof.Boolean
import Verif.Proof.Change
import Verif.Proof.Closure
import Verif.Proof.Contents
import Verif.Proof.Cte
import Verif.Proof.DdlForm
import Verif.Proof.Declared
import Verif.Proof.Distinct
import Verif.Proof.Drops
import Verif.Proof.Fill
import Verif.Proof.Group
import Verif.Proof.Guard
import Verif.Proof.Introspect
import Verif.Proof.LexItems
import Verif.Proof.Lexer
import Verif.Proof.Lexical
import Verif.Proof.Load
import Verif.Proof.LoadDb
import Verif.Proof.Machine
import Verif.Proof.Migrate
import Verif.Proof.Names
import Verif.Proof.Parts
import Verif.Proof.Pin
import Verif.Proof.Placed
import Verif.Proof.PlacedDecl
import Verif.Proof.Pool
import Verif.Proof.Quote
import Verif.Proof.Resolve
import Verif.Proof.Select
import Verif.Proof.Seq
import Verif.Proof.SetOps
import Verif.Proof.Shift
import Verif.Proof.Sub
import Verif.Proof.Subst
import Verif.Proof.SubstTree
import Verif.Proof.Tokenize
import Verif.Proof.Tree
import Verif.Proof.Where
import Verif.Props.Again
import Verif.Props.Alter
import Verif.Props.Binding
import Verif.Props.Boolean
import Verif.Props.Builder
import Verif.Props.Calls
import Verif.Props.Cascade
import Verif.Props.Catalog
import Verif.Props.Chain
import Verif.Props.Change
import Verif.Props.Clauses
import Verif.Props.Columns
import Verif.Props.Contents
import Verif.Props.Converge
import Verif.Props.ConvergeParts
import Verif.Props.Create
import Verif.Props.Cte
import Verif.Props.DdlForm
import Verif.Props.DdlSays
import Verif.Props.DdlSupport
import Verif.Props.Declared
import Verif.Props.Default
import Verif.Props.Derived
import Verif.Props.Dialect
import Verif.Props.Distinct
import Verif.Props.Effect
import Verif.Props.Errors
import Verif.Props.Expr
import Verif.Props.Expressible
import Verif.Props.Fetch
import Verif.Props.Field
import Verif.Props.Fill
import Verif.Props.Filter
import Verif.Props.Format
import Verif.Props.FormatValues
import Verif.Props.Fragments
import Verif.Props.GenName
import Verif.Props.Group
import Verif.Props.Guard
import Verif.Props.Guards
import Verif.Props.Hooks
import Verif.Props.Ident
import Verif.Props.Inline
import Verif.Props.Lexical
import Verif.Props.Literal
import Verif.Props.Load
import Verif.Props.Logger
import Verif.Props.Meta
import Verif.Props.Migrate
import Verif.Props.Modes
import Verif.Props.NoPanic
import Verif.Props.Offered
import Verif.Props.Pages
import Verif.Props.Pool
import Verif.Props.Quote
import Verif.Props.Rebind
import Verif.Props.Reflect
import Verif.Props.Renders
import Verif.Props.Returning
import Verif.Props.Rows
import Verif.Props.Run
import Verif.Props.Scan
import Verif.Props.Script
import Verif.Props.ScriptBugs
import Verif.Props.ScriptRead
import Verif.Props.Select
import Verif.Props.Send
import Verif.Props.SetOps
import Verif.Props.SplitArgs
import Verif.Props.Sprintf
import Verif.Props.Statements
import Verif.Props.Stats
import Verif.Props.Store
import Verif.Props.Sub
import Verif.Props.TriggerText
import Verif.Props.Upsert
import Verif.Props.Values
import Verif.Props.View
import Verif.Props.ViewSays
import Verif.Props.Where
import Verif.Props.Written
import Verif.Spec.Args
import Verif.Spec.Boolean
import Verif.Spec.Builder
import Verif.Spec.Built
import Verif.Spec.Calls
import Verif.Spec.Cascade
import Verif.Spec.Catalog
import Verif.Spec.Chain
import Verif.Spec.Change
import Verif.Spec.Clauses
import Verif.Spec.Cte
import Verif.Spec.DdlForm
import Verif.Spec.DdlSupport
import Verif.Spec.Declared
import Verif.Spec.Derived
import Verif.Spec.Dialect
import Verif.Spec.Distinct
import Verif.Spec.Effect
import Verif.Spec.Expr
import Verif.Spec.Expressible
import Verif.Spec.Fetch
import Verif.Spec.Field
import Verif.Spec.Fill
import Verif.Spec.Filter
import Verif.Spec.Fragments
import Verif.Spec.Group
import Verif.Spec.Guard
import Verif.Spec.Ident
import Verif.Spec.Inline
import Verif.Spec.Lexer
import Verif.Spec.Lexical
import Verif.Spec.Literal
import Verif.Spec.Logger
import Verif.Spec.Migrate
import Verif.Spec.Offered
import Verif.Spec.Parts
import Verif.Spec.Pool
import Verif.Spec.Reflect
import Verif.Spec.Renders
import Verif.Spec.Resolve
import Verif.Spec.Returning
import Verif.Spec.Run
import Verif.Spec.Scan
import Verif.Spec.Scanner
import Verif.Spec.Script
import Verif.Spec.Select
import Verif.Spec.Send
import Verif.Spec.SetOps
import Verif.Spec.Stats
import Verif.Spec.Store
import Verif.Spec.Sub
import Verif.Spec.Tags
import Verif.Spec.Template
import Verif.Spec.Upsert
import Verif.Spec.View
import Verif.Spec.Where
import Verif.Spec.Written
