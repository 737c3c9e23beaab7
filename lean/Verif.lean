import Verif.Prelude
import Verif.DateTimeProps
import Verif.DateTimeTextProps
import Verif.IntProps
import Verif.TimeSpanProps
import Verif.TimeSpanTextProps
import Verif.StringBuilderProps
import Verif.StringProps
import Verif.BoolCharProps
import Verif.ArrayProps
import Verif.BufferProps
import Verif.BitConverterProps
import Verif.FloatProps
import Verif.FloatOrderProps
import Verif.FloatMathProps
import Verif.FloatRoundProps
import Verif.MathProps
import Verif.AllocProps
import Verif.FmtTextProps
import Verif.FmtLayoutProps
import Verif.TypesProps
import Verif.TableProps
import Verif.HeaderProps
import Verif.ConstProps
import Verif.NamesProps
import Verif.StmtProps
import Verif.SwitchProps
import Verif.ExprProps
import Verif.SemProps
import Verif.CompoundProps
import Verif.LabelProps
import Verif.ArgProps
import Verif.FlowProps
import Verif.ScopeProps
import Verif.MemberProps
import Verif.CtorProps
import Verif.ConcatModel
import Verif.ConcatProps
import Verif.OrderModel
import Verif.OrderProps
import Verif.LibTable
import Verif.LibModel
import Verif.LibProps
import Verif.ReportModel
import Verif.ReportProps
import Verif.TryModel
import Verif.TryProps
import Verif.BoxModel
import Verif.BoxProps
import Verif.DefaultModel
import Verif.DefaultProps
import Verif.UserOpModel
import Verif.UserOpProps
import Verif.AccessModel
import Verif.AccessProps
import Verif.DispatchModel
import Verif.DispatchProps
import Verif.InitModel
import Verif.InitProps
import Verif.LineModel
import Verif.LineProps
import Verif.ArithModel
import Verif.ArithLemmas
import Verif.ArithValue
import Verif.FloatTimeModel
import Verif.FloatTimeProps
import Verif.FloatSpanProps
import Verif.FloatScaleProps
import Verif.RoundModel
import Verif.RoundLemmas
import Verif.FloatTextModel
import Verif.FloatTextSpec
import Verif.FloatScanProps
import Verif.FloatParseProps
import Verif.FloatTextProps
import Verif.FloatTextMore
import Verif.FloatModProps
import Verif.FloatExprModel
import Verif.FloatDoubleRound
import Verif.FloatExprLemmas
import Verif.FloatOpProps
import Verif.FloatIeeeProps
import Verif.SupportModel
import Verif.SupportProps
import Verif.ClockModel
import Verif.ClockProps
import Verif.EnumModel
import Verif.EnumProps
import Verif.MethodProps
import Verif.VisitModel
import Verif.VisitProps
import Verif.FloatExprProps
import Verif.BoxConvProps
import Verif.MathRoundModel
import Verif.MathRoundLemmas
import Verif.MathRoundProps
import Verif.MathMoreProps
import Verif.DriveModel
import Verif.DriveProps
import Verif.StringRangeProps
import Verif.ObjectModel
import Verif.ObjectProps
import Verif.CppRead
import Verif.ReadLemmas
import Verif.ExprText
import Verif.ExprTextLemmas
import Verif.ExprTextProps
import Verif.CppStmtRead
import Verif.StmtText
import Verif.FlowRename
import Verif.StmtTextLemmas
import Verif.StmtTextVisit
import Verif.StmtTextSplit
import Verif.StmtTextRead
import Verif.StmtTextProps
import Verif.StmtTextDepth
import Verif.ExactProps
import Verif.ProgramModel
import Verif.ProgramProps
import Verif.FlowSim
import Verif.ArrProgModel
import Verif.ArrProgProps
import Verif.ObjProgModel
import Verif.ObjProgProps
import Verif.CtorOrderModel
import Verif.CtorOrderProps
import Verif.FloatLitProps
import Verif.ArrMeanProps
import Verif.ObjLifeSpec
import Verif.ObjLifeProps
import Verif.StringExact
import Verif.StringComplete
import Verif.IntExact
import Verif.CompleteProps
import Verif.BuildComplete
import Verif.ArrayComplete
import Verif.BitsComplete
import Verif.ProgTextProps
import Verif.EvalOrderProps
import Verif.CppReadCheck
import Verif.SBExact
import Verif.DateTimeHeld
import Verif.LiteralExact
import Verif.MathConstProps
import Verif.LogProps
import Verif.AbsProps
import Verif.CompareExact
import Verif.SpanParseExact
import Verif.AllocExact
import Verif.BoolCharExact
import Verif.StringSearchExact
import Verif.JoinExact
import Verif.SBReadExact
import Verif.MathExact
import Verif.HeaderExact
import Verif.HeaderFields
import Verif.TranslateExact
import Verif.StmtExact
import Verif.DeclExact
import Verif.BoxedExact
import Verif.NamesExact
import Verif.FieldTypeModel
import Verif.FieldTypeExact
import Verif.SBObject
import Verif.JoinCharExact
import Verif.CastExact
import Verif.FormatExact
import Verif.ValueAppend
import Verif.DateFormat
import Verif.SpanFormat
