import Verif.Props.Names
import Verif.Props.XlDate
import Verif.Props.Cells
import Verif.Props.Access
import Verif.Props.CompDoc
import Verif.Props.Strings
import Verif.Props.Numbers
import Verif.Props.SheetRead
import Verif.Props.SheetAttrs
import Verif.Props.SheetExamples
import Verif.Props.FormatString
import Verif.Props.Formatting
import Verif.Props.Globals
import Verif.Props.NumberFormats
import Verif.Props.DefinedNames
import Verif.Props.Settings
import Verif.Props.GlobalsExamples
import Verif.Props.Open
import Verif.Props.Life
import Verif.Props.Files
import Verif.Props.Workbook
import Verif.Props.Countries
import Verif.Props.Display
import Verif.Props.CountriesExamples
import Verif.Lemmas.Countries
import Verif.Props.WorkbookExamples
import Verif.Model.Formula
import Verif.Spec.Formula
import Verif.Spec.Extern
import Verif.Props.Formula
import Verif.Props.Extern
import Verif.Props.ExternOld
import Verif.Props.ExternExamples
import Verif.Props.Evaluate
import Verif.Spec.FormulaText
import Verif.Spec.Functions
import Verif.Spec.FormulaSheets
import Verif.Lemmas.FormulaText
import Verif.Props.FormulaText
import Verif.Props.FormulaLeaves
import Verif.Props.FormulaSheets
import Verif.Props.FormulaSheetsExamples
import Verif.Props.FormulaShared
import Verif.Props.Functions
import Verif.Spec.Container
import Verif.Lemmas.Container
import Verif.Lemmas.ContainerOpen
import Verif.Props.Container
import Verif.Props.ContainerExamples
import Verif.Spec.Names3
import Verif.Props.Names3
import Verif.Spec.RefExpr
import Verif.Props.NameValues
import Verif.Props.NameValuesExamples
import Verif.Model.Drawing
import Verif.Spec.Drawing
import Verif.Lemmas.Hyperlinks
import Verif.Lemmas.Notes
import Verif.Props.Drawing
import Verif.Lemmas.OldLoop
import Verif.Props.OldFile
import Verif.Props.OldFileExamples
import Verif.Props.UserName
import Verif.Props.Addins
import Verif.Lemmas.Biff2Fields
import Verif.Props.Biff2
import Verif.Props.Biff2Examples
import Verif.Props.Biff4w
import Verif.Props.Biff4wExamples
import Verif.Props.Biff4wFontsExamples
import Verif.Spec.Loop
import Verif.Lemmas.Loops
import Verif.Props.Loops
import Verif.Props.LoopsExamples
import Verif.Spec.NameExpr
import Verif.Props.NameExpr
import Verif.Props.NameExprRun
import Verif.Props.NameExprExamples
import Verif.Spec.OldNameExpr
import Verif.Props.NameExprOld
import Verif.Props.NameExprOldExamples
import Verif.Model.Dump
import Verif.Spec.Dump
import Verif.Lemmas.Dump
import Verif.Lemmas.DumpLoop
import Verif.Lemmas.DumpCount
import Verif.Props.Dump
import Verif.Props.DumpExamples
import Verif.Spec.Openable
import Verif.Lemmas.OpenOk
import Verif.Lemmas.NamesOk
import Verif.Spec.Computable
import Verif.Lemmas.NameSteps
import Verif.Lemmas.NameProgress
import Verif.Lemmas.RelProgress
import Verif.Lemmas.Efont
import Verif.Lemmas.EncKept
import Verif.Props.Opens
import Verif.Props.OpensExamples
import Verif.Props.OpensAll
import Verif.Props.OpensAllExamples
import Verif.Spec.Whole
import Verif.Props.Whole
import Verif.Props.WholeExamples
import Verif.Spec.RelExpr
import Verif.Props.RelNames
import Verif.Props.RelNamesExamples
import Verif.Props.OpensExprExamples
import Verif.Props.OpensRelExamples
import Verif.Props.OldScopes
import Verif.Props.NameValuesOld
import Verif.Props.NameValuesOldExamples
import Verif.Spec.OldOpen
import Verif.Lemmas.OldOpenOk
import Verif.Props.OpensOld
import Verif.Props.OpensOldExamples
import Verif.Spec.OpenB2
import Verif.Lemmas.Biff2Ok
import Verif.Props.OpensB2
import Verif.Props.OpensB2Examples
import Verif.Props.OpensW
import Verif.Props.OpensWExamples
import Verif.Model.Iter
import Verif.Spec.Iter
import Verif.Props.Iter
import Verif.Props.IterExamples
import Verif.Spec.DateCells
import Verif.Props.DateCells
import Verif.Props.DateCellsExamples
import Verif.Spec.UserName
import Verif.Lemmas.UserHist
import Verif.Props.UserNames
import Verif.Lemmas.PySemantics
import Verif.Props.UserNamesExamples
import Verif.Props.UserNamePad
import Verif.Props.Tables
import Verif.Props.TablesExamples
import Verif.Props.TablesOld
import Verif.Props.Repr
import Verif.Model.Resources
import Verif.Spec.Resources
import Verif.Props.Resources
import Verif.Props.ResourcesExamples
import Verif.Spec.Colours
import Verif.Props.ColoursUsed
import Verif.Props.NameText
import Verif.Props.NameTextExamples
import Verif.Props.RelNameText
import Verif.Props.RelNameTextExamples
import Verif.Props.RelLeaf
import Verif.Props.RelLeafExamples
import Verif.Props.IterCountries
import Verif.Spec.CellKinds
import Verif.Lemmas.CellKinds
import Verif.Props.CellKinds
import Verif.Props.OldCellKinds
import Verif.Props.CellKindsExamples
