import Verif.Model.Str
/-! SQLSTATE codes and classes: sql/errors/code.go, sql/errors/class.go. -/
namespace Verif.Errors
open Verif

/-- code.go 23-284: the declared codes, as (constant name, SQLSTATE value), in source order. -/
def codeDecls : List (Str × Str) :=
  [(s%"SuccessfulCompletion", s%"00000"),
   (s%"Warning", s%"01000"),
   (s%"DynamicResultSetsReturned", s%"0100C"),
   (s%"ImplicitZeroBitPadding", s%"01008"),
   (s%"NullValueEliminatedInSetFunction", s%"01003"),
   (s%"PrivilegeNotGranted", s%"01007"),
   (s%"PrivilegeNotRevoked", s%"01006"),
   (s%"StringDataRightTruncationWarning", s%"01004"),
   (s%"DeprecatedFeature", s%"01P01"),
   (s%"NoData", s%"02000"),
   (s%"NoAdditionalDynamicResultSetsReturned", s%"02001"),
   (s%"SQLStatementNotYetComplete", s%"03000"),
   (s%"ConnectionException", s%"08000"),
   (s%"ConnectionDoesNotExist", s%"08003"),
   (s%"ConnectionFailure", s%"08006"),
   (s%"SQLClientUnableToEstablishSQLConnection", s%"08001"),
   (s%"SQLServerRejectedEstablishmentOfSQLConnection", s%"08004"),
   (s%"TransactionResolutionUnknown", s%"08007"),
   (s%"ProtocolViolation", s%"08P01"),
   (s%"TriggeredActionException", s%"09000"),
   (s%"FeatureNotSupported", s%"0A000"),
   (s%"InvalidTransactionInitiation", s%"0B000"),
   (s%"LocatorException", s%"0F000"),
   (s%"InvalidLocatorSpecification", s%"0F001"),
   (s%"InvalidGrantor", s%"0L000"),
   (s%"InvalidGrantOperation", s%"0LP01"),
   (s%"InvalidRoleSpecification", s%"0P000"),
   (s%"DiagnosticsException", s%"0Z000"),
   (s%"StackedDiagnosticsAccessedWithoutActiveHandler", s%"0Z002"),
   (s%"CaseNotFound", s%"20000"),
   (s%"CardinalityViolation", s%"21000"),
   (s%"DataException", s%"22000"),
   (s%"ArraySubscriptError", s%"2202E"),
   (s%"CharacterNotInRepertoire", s%"22021"),
   (s%"DatetimeFieldOverflow", s%"22008"),
   (s%"DivisionByZero", s%"22012"),
   (s%"ErrorInAssignment", s%"22005"),
   (s%"EscapeCharacterConflict", s%"2200B"),
   (s%"IndicatorOverflow", s%"22022"),
   (s%"IntervalFieldOverflow", s%"22015"),
   (s%"InvalidArgumentForLogarithm", s%"2201E"),
   (s%"InvalidArgumentForNtileFunction", s%"22014"),
   (s%"InvalidArgumentForNthValueFunction", s%"22016"),
   (s%"InvalidArgumentForPowerFunction", s%"2201F"),
   (s%"InvalidArgumentForWidthBucketFunction", s%"2201G"),
   (s%"InvalidCharacterValueForCast", s%"22018"),
   (s%"InvalidDatetimeFormat", s%"22007"),
   (s%"InvalidEscapeCharacter", s%"22019"),
   (s%"InvalidEscapeOctet", s%"2200D"),
   (s%"InvalidEscapeSequence", s%"22025"),
   (s%"NonstandardUseOfEscapeCharacter", s%"22P06"),
   (s%"InvalidIndicatorParameterValue", s%"22010"),
   (s%"InvalidParameterValue", s%"22023"),
   (s%"InvalidPrecedingOrFollowingSize", s%"22013"),
   (s%"InvalidRegularExpression", s%"2201B"),
   (s%"InvalidRowCountInLimitClause", s%"2201W"),
   (s%"InvalidRowCountInResultOffsetClause", s%"2201X"),
   (s%"InvalidTablesampleArgument", s%"2202H"),
   (s%"InvalidTablesampleRepeat", s%"2202G"),
   (s%"InvalidTimeZoneDisplacementValue", s%"22009"),
   (s%"InvalidUseOfEscapeCharacter", s%"2200C"),
   (s%"MostSpecificTypeMismatch", s%"2200G"),
   (s%"NullDataValueNotAllowed", s%"22004"),
   (s%"NullDataValueNoIndicatorParameter", s%"22002"),
   (s%"NumericValueOutOfRange", s%"22003"),
   (s%"SequenceGeneratorLimitExceeded", s%"2200H"),
   (s%"StringDataLengthMismatch", s%"22026"),
   (s%"StringDataRightTruncation", s%"22001"),
   (s%"SubstringError", s%"22011"),
   (s%"TrimError", s%"22027"),
   (s%"UnterminatedCString", s%"22024"),
   (s%"ZeroLengthCharacterString", s%"2200F"),
   (s%"FloatingPointException", s%"22P01"),
   (s%"InvalidTextRepresentation", s%"22P02"),
   (s%"InvalidBinaryRepresentation", s%"22P03"),
   (s%"BadCopyFileFormat", s%"22P04"),
   (s%"UntranslatableCharacter", s%"22P05"),
   (s%"NotAnXMLDocument", s%"2200L"),
   (s%"InvalidXMLDocument", s%"2200M"),
   (s%"InvalidXMLContent", s%"2200N"),
   (s%"InvalidXMLComment", s%"2200S"),
   (s%"InvalidXMLProcessingInstruction", s%"2200T"),
   (s%"DuplicateJSONObjectKeyValue", s%"22030"),
   (s%"InvalidArgumentForSQLJSONDatetimeFunction", s%"22031"),
   (s%"InvalidJSONText", s%"22032"),
   (s%"InvalidSQLJSONSubscript", s%"22033"),
   (s%"MoreThanOneSQLJSONItem", s%"22034"),
   (s%"NoSQLJSONItem", s%"22035"),
   (s%"NonNumericSQLJSONItem", s%"22036"),
   (s%"NonUniqueKeysInAJSONObject", s%"22037"),
   (s%"SingletonSQLJSONItemRequired", s%"22038"),
   (s%"SQLJSONArrayNotFound", s%"22039"),
   (s%"SQLJSONMemberNotFound", s%"2203A"),
   (s%"SQLJSONNumberNotFound", s%"2203B"),
   (s%"SQLJSONObjectNotFound", s%"2203C"),
   (s%"TooManyJSONArrayElements", s%"2203D"),
   (s%"TooManyJSONObjectMembers", s%"2203E"),
   (s%"SQLJSONScalarRequired", s%"2203F"),
   (s%"SQLJSONItemCannotBeCastToTargetType", s%"2203G"),
   (s%"IntegrityConstraintViolation", s%"23000"),
   (s%"RestrictViolation", s%"23001"),
   (s%"NotNullViolation", s%"23502"),
   (s%"ForeignKeyViolation", s%"23503"),
   (s%"UniqueViolation", s%"23505"),
   (s%"CheckViolation", s%"23514"),
   (s%"ExclusionViolation", s%"23P01"),
   (s%"InvalidCursorState", s%"24000"),
   (s%"InvalidTransactionState", s%"25000"),
   (s%"ActiveSQLTransaction", s%"25001"),
   (s%"BranchTransactionAlreadyActive", s%"25002"),
   (s%"HeldCursorRequiresSameIsolationLevel", s%"25008"),
   (s%"InappropriateAccessModeForBranchTransaction", s%"25003"),
   (s%"InappropriateIsolationLevelForBranchTransaction", s%"25004"),
   (s%"NoActiveSQLTransactionForBranchTransaction", s%"25005"),
   (s%"ReadOnlySQLTransaction", s%"25006"),
   (s%"SchemaAndDataStatementMixingNotSupported", s%"25007"),
   (s%"NoActiveSQLTransaction", s%"25P01"),
   (s%"InFailedSQLTransaction", s%"25P02"),
   (s%"IdleInTransactionSessionTimeout", s%"25P03"),
   (s%"TransactionTimeout", s%"25P04"),
   (s%"InvalidSQLStatementName", s%"26000"),
   (s%"TriggeredDataChangeViolation", s%"27000"),
   (s%"InvalidAuthorizationSpecification", s%"28000"),
   (s%"InvalidPassword", s%"28P01"),
   (s%"DependentPrivilegeDescriptorsStillExist", s%"2B000"),
   (s%"DependentObjectsStillExist", s%"2BP01"),
   (s%"InvalidTransactionTermination", s%"2D000"),
   (s%"SQLRoutineException", s%"2F000"),
   (s%"FunctionExecutedNoReturnStatement", s%"2F005"),
   (s%"SQLRoutineModifyingSQLDataNotPermitted", s%"2F002"),
   (s%"SQLRoutineProhibitedSQLStatementAttempted", s%"2F003"),
   (s%"SQLRoutineReadingSQLDataNotPermitted", s%"2F004"),
   (s%"InvalidCursorName", s%"34000"),
   (s%"ExternalRoutineException", s%"38000"),
   (s%"ContainingSQLNotPermitted", s%"38001"),
   (s%"ExternalRoutineModifyingSQLDataNotPermitted", s%"38002"),
   (s%"ExternalRoutineProhibitedSQLStatementAttempted", s%"38003"),
   (s%"ExternalRoutineReadingSQLDataNotPermitted", s%"38004"),
   (s%"ExternalRoutineInvocationException", s%"39000"),
   (s%"InvalidSQLStateReturned", s%"39001"),
   (s%"NullValueNotAllowed", s%"39004"),
   (s%"TriggerProtocolViolated", s%"39P01"),
   (s%"SRFProtocolViolated", s%"39P02"),
   (s%"EventTriggerProtocolViolated", s%"39P03"),
   (s%"SavepointException", s%"3B000"),
   (s%"InvalidSavepointSpecification", s%"3B001"),
   (s%"InvalidCatalogName", s%"3D000"),
   (s%"InvalidSchemaName", s%"3F000"),
   (s%"TransactionRollback", s%"40000"),
   (s%"TransactionIntegrityConstraintViolation", s%"40002"),
   (s%"SerializationFailure", s%"40001"),
   (s%"StatementCompletionUnknown", s%"40003"),
   (s%"DeadlockDetected", s%"40P01"),
   (s%"SyntaxErrorOrAccessRuleViolation", s%"42000"),
   (s%"SyntaxError", s%"42601"),
   (s%"InsufficientPrivilege", s%"42501"),
   (s%"CannotCoerce", s%"42846"),
   (s%"GroupingError", s%"42803"),
   (s%"WindowingError", s%"42P20"),
   (s%"InvalidRecursion", s%"42P19"),
   (s%"InvalidForeignKey", s%"42830"),
   (s%"InvalidName", s%"42602"),
   (s%"NameTooLong", s%"42622"),
   (s%"ReservedName", s%"42939"),
   (s%"DatatypeMismatch", s%"42804"),
   (s%"IndeterminateDatatype", s%"42P18"),
   (s%"CollationMismatch", s%"42P21"),
   (s%"IndeterminateCollation", s%"42P22"),
   (s%"WrongObjectType", s%"42809"),
   (s%"GeneratedAlways", s%"428C9"),
   (s%"UndefinedColumn", s%"42703"),
   (s%"UndefinedFunction", s%"42883"),
   (s%"UndefinedTable", s%"42P01"),
   (s%"UndefinedParameter", s%"42P02"),
   (s%"UndefinedObject", s%"42704"),
   (s%"DuplicateColumn", s%"42701"),
   (s%"DuplicateCursor", s%"42P03"),
   (s%"DuplicateDatabase", s%"42P04"),
   (s%"DuplicateFunction", s%"42723"),
   (s%"DuplicatePreparedStatement", s%"42P05"),
   (s%"DuplicateSchema", s%"42P06"),
   (s%"DuplicateTable", s%"42P07"),
   (s%"DuplicateAlias", s%"42712"),
   (s%"DuplicateObject", s%"42710"),
   (s%"AmbiguousColumn", s%"42702"),
   (s%"AmbiguousFunction", s%"42725"),
   (s%"AmbiguousParameter", s%"42P08"),
   (s%"AmbiguousAlias", s%"42P09"),
   (s%"InvalidColumnReference", s%"42P10"),
   (s%"InvalidColumnDefinition", s%"42611"),
   (s%"InvalidCursorDefinition", s%"42P11"),
   (s%"InvalidDatabaseDefinition", s%"42P12"),
   (s%"InvalidFunctionDefinition", s%"42P13"),
   (s%"InvalidPreparedStatementDefinition", s%"42P14"),
   (s%"InvalidSchemaDefinition", s%"42P15"),
   (s%"InvalidTableDefinition", s%"42P16"),
   (s%"InvalidObjectDefinition", s%"42P17"),
   (s%"WithCheckOptionViolation", s%"44000"),
   (s%"InsufficientResources", s%"53000"),
   (s%"DiskFull", s%"53100"),
   (s%"OutOfMemory", s%"53200"),
   (s%"TooManyConnections", s%"53300"),
   (s%"ConfigurationLimitExceeded", s%"53400"),
   (s%"ProgramLimitExceeded", s%"54000"),
   (s%"StatementTooComplex", s%"54001"),
   (s%"TooManyColumns", s%"54011"),
   (s%"TooManyArguments", s%"54023"),
   (s%"ObjectNotInPrerequisiteState", s%"55000"),
   (s%"ObjectInUse", s%"55006"),
   (s%"CantChangeRuntimeParam", s%"55P02"),
   (s%"LockNotAvailable", s%"55P03"),
   (s%"UnsafeNewEnumValueUsage", s%"55P04"),
   (s%"OperatorIntervention", s%"57000"),
   (s%"QueryCanceled", s%"57014"),
   (s%"AdminShutdown", s%"57P01"),
   (s%"CrashShutdown", s%"57P02"),
   (s%"CannotConnectNow", s%"57P03"),
   (s%"DatabaseDropped", s%"57P04"),
   (s%"IdleSessionTimeout", s%"57P05"),
   (s%"SystemError", s%"58000"),
   (s%"IOError", s%"58030"),
   (s%"UndefinedFile", s%"58P01"),
   (s%"DuplicateFile", s%"58P02"),
   (s%"ConfigFileError", s%"F0000"),
   (s%"LockFileExists", s%"F0001"),
   (s%"FDWError", s%"HV000"),
   (s%"FDWColumnNameNotFound", s%"HV005"),
   (s%"FDWDynamicParameterValueNeeded", s%"HV002"),
   (s%"FDWFunctionSequenceError", s%"HV010"),
   (s%"FDWInconsistentDescriptorInformation", s%"HV021"),
   (s%"FDWInvalidAttributeValue", s%"HV024"),
   (s%"FDWInvalidColumnName", s%"HV007"),
   (s%"FDWInvalidColumnNumber", s%"HV008"),
   (s%"FDWInvalidDataType", s%"HV004"),
   (s%"FDWInvalidDataTypeDescriptors", s%"HV006"),
   (s%"FDWInvalidDescriptorFieldIdentifier", s%"HV091"),
   (s%"FDWInvalidHandle", s%"HV00B"),
   (s%"FDWInvalidOptionIndex", s%"HV00C"),
   (s%"FDWInvalidOptionName", s%"HV00D"),
   (s%"FDWInvalidStringLength", s%"HV090"),
   (s%"FDWInvalidStringFormat", s%"HV00A"),
   (s%"FDWInvalidUseOfNullPointer", s%"HV009"),
   (s%"FDWTooManyHandles", s%"HV014"),
   (s%"FDWOutOfMemory", s%"HV001"),
   (s%"FDWNoSchemas", s%"HV00P"),
   (s%"FDWOptionNameNotFound", s%"HV00J"),
   (s%"FDWReplyHandle", s%"HV00K"),
   (s%"FDWSchemaNotFound", s%"HV00Q"),
   (s%"FDWTableNotFound", s%"HV00R"),
   (s%"FDWUnableToCreateExecution", s%"HV00L"),
   (s%"FDWUnableToCreateReply", s%"HV00M"),
   (s%"FDWUnableToEstablishConnection", s%"HV00N"),
   (s%"PLPGSQLError", s%"P0000"),
   (s%"RaiseException", s%"P0001"),
   (s%"NoDataFound", s%"P0002"),
   (s%"TooManyRows", s%"P0003"),
   (s%"AssertFailure", s%"P0004"),
   (s%"InternalError", s%"XX000"),
   (s%"DataCorrupted", s%"XX001"),
   (s%"IndexCorrupted", s%"XX002")]

/-- code.go 288-811: the cases of the switch, as (value of the case constant, description), in source order. -/
def codeCases : List (Str × Str) :=
  [(s%"00000", s%"Successful Completion"),
   (s%"01000", s%"Warning"),
   (s%"0100C", s%"Dynamic Result Sets Returned"),
   (s%"01008", s%"Implicit Zero Bit Padding"),
   (s%"01003", s%"Null Value Eliminated In Set Function"),
   (s%"01007", s%"Privilege Not Granted"),
   (s%"01006", s%"Privilege Not Revoked"),
   (s%"01004", s%"String Data Right Truncation Warning"),
   (s%"01P01", s%"Deprecated Feature"),
   (s%"02000", s%"No Data"),
   (s%"02001", s%"No Additional Dynamic Result Sets Returned"),
   (s%"03000", s%"SQL Statement Not Yet Complete"),
   (s%"08000", s%"Connection Exception"),
   (s%"08003", s%"Connection Does Not Exist"),
   (s%"08006", s%"Connection Failure"),
   (s%"08001", s%"SQL Client Unable To Establish SQL Connection"),
   (s%"08004", s%"SQL Server Rejected Establishment Of SQL Connection"),
   (s%"08007", s%"Transaction Resolution Unknown"),
   (s%"08P01", s%"Protocol Violation"),
   (s%"09000", s%"Triggered Action Exception"),
   (s%"0A000", s%"Feature Not Supported"),
   (s%"0B000", s%"Invalid Transaction Initiation"),
   (s%"0F000", s%"Locator Exception"),
   (s%"0F001", s%"Invalid Locator Specification"),
   (s%"0L000", s%"Invalid Grantor"),
   (s%"0LP01", s%"Invalid Grant Operation"),
   (s%"0P000", s%"Invalid Role Specification"),
   (s%"0Z000", s%"Diagnostics Exception"),
   (s%"0Z002", s%"Stacked Diagnostics Accessed Without Active Handler"),
   (s%"20000", s%"Case Not Found"),
   (s%"21000", s%"Cardinality Violation"),
   (s%"22000", s%"Data Exception"),
   (s%"2202E", s%"Array Subscript Error"),
   (s%"22021", s%"Character Not In Repertoire"),
   (s%"22008", s%"Datetime Field Overflow"),
   (s%"22012", s%"Division By Zero"),
   (s%"22005", s%"Error In Assignment"),
   (s%"2200B", s%"Escape Character Conflict"),
   (s%"22022", s%"Indicator Overflow"),
   (s%"22015", s%"Interval Field Overflow"),
   (s%"2201E", s%"Invalid Argument For Logarithm"),
   (s%"22014", s%"Invalid Argument For Ntile Function"),
   (s%"22016", s%"Invalid Argument For Nth Value Function"),
   (s%"2201F", s%"Invalid Argument For Power Function"),
   (s%"2201G", s%"Invalid Argument For Width Bucket Function"),
   (s%"22018", s%"Invalid Character Value For Cast"),
   (s%"22007", s%"Invalid Datetime Format"),
   (s%"22019", s%"Invalid Escape Character"),
   (s%"2200D", s%"Invalid Escape Octet"),
   (s%"22025", s%"Invalid Escape Sequence"),
   (s%"22P06", s%"Nonstandard Use Of Escape Character"),
   (s%"22010", s%"Invalid Indicator Parameter Value"),
   (s%"22023", s%"Invalid Parameter Value"),
   (s%"22013", s%"Invalid Preceding Or Following Size"),
   (s%"2201B", s%"Invalid Regular Expression"),
   (s%"2201W", s%"Invalid Row Count In Limit Clause"),
   (s%"2201X", s%"Invalid Row Count In Result Offset Clause"),
   (s%"2202H", s%"Invalid Tablesample Argument"),
   (s%"2202G", s%"Invalid Tablesample Repeat"),
   (s%"22009", s%"Invalid Time Zone Displacement Value"),
   (s%"2200C", s%"Invalid Use Of Escape Character"),
   (s%"2200G", s%"Most Specific Type Mismatch"),
   (s%"22004", s%"Null Data Value Not Allowed"),
   (s%"22002", s%"Null Data Value No Indicator Parameter"),
   (s%"22003", s%"Numeric Value Out Of Range"),
   (s%"2200H", s%"Sequence Generator Limit Exceeded"),
   (s%"22026", s%"String Data Length Mismatch"),
   (s%"22001", s%"String Data Right Truncation"),
   (s%"22011", s%"Substring Error"),
   (s%"22027", s%"Trim Error"),
   (s%"22024", s%"Unterminated C String"),
   (s%"2200F", s%"Zero Length Character String"),
   (s%"22P01", s%"Floating Point Exception"),
   (s%"22P02", s%"Invalid Text Representation"),
   (s%"22P03", s%"Invalid Binary Representation"),
   (s%"22P04", s%"Bad Copy File Format"),
   (s%"22P05", s%"Untranslatable Character"),
   (s%"2200L", s%"Not An XML Document"),
   (s%"2200M", s%"Invalid XML Document"),
   (s%"2200N", s%"Invalid XML Content"),
   (s%"2200S", s%"Invalid XML Comment"),
   (s%"2200T", s%"Invalid XML Processing Instruction"),
   (s%"22030", s%"Duplicate JSON Object Key Value"),
   (s%"22031", s%"Invalid Argument For SQL/JSON Datetime Function"),
   (s%"22032", s%"Invalid JSON Text"),
   (s%"22033", s%"Invalid SQL/JSON Subscript"),
   (s%"22034", s%"More Than One SQL/JSON Item"),
   (s%"22035", s%"No SQL/JSON Item"),
   (s%"22036", s%"Non Numeric SQL/JSON Item"),
   (s%"22037", s%"Non Unique Keys In A JSON Object"),
   (s%"22038", s%"Singleton SQL/JSON Item Required"),
   (s%"22039", s%"SQL/JSON Array Not Found"),
   (s%"2203A", s%"SQL/JSON Member Not Found"),
   (s%"2203B", s%"SQL/JSON Number Not Found"),
   (s%"2203C", s%"SQL/JSON Object Not Found"),
   (s%"2203D", s%"Too Many JSON Array Elements"),
   (s%"2203E", s%"Too Many JSON Object Members"),
   (s%"2203F", s%"SQL/JSON Scalar Required"),
   (s%"2203G", s%"SQL/JSON Item Cannot Be Cast To Target Type"),
   (s%"23000", s%"Integrity Constraint Violation"),
   (s%"23001", s%"Restrict Violation"),
   (s%"23502", s%"Not Null Violation"),
   (s%"23503", s%"Foreign Key Violation"),
   (s%"23505", s%"Unique Violation"),
   (s%"23514", s%"Check Violation"),
   (s%"23P01", s%"Exclusion Violation"),
   (s%"24000", s%"Invalid Cursor State"),
   (s%"25000", s%"Invalid Transaction State"),
   (s%"25001", s%"Active SQL Transaction"),
   (s%"25002", s%"Branch Transaction Already Active"),
   (s%"25008", s%"Held Cursor Requires Same Isolation Level"),
   (s%"25003", s%"Inappropriate Access Mode For Branch Transaction"),
   (s%"25004", s%"Inappropriate Isolation Level For Branch Transaction"),
   (s%"25005", s%"No Active SQL Transaction For Branch Transaction"),
   (s%"25006", s%"Read Only SQL Transaction"),
   (s%"25007", s%"Schema And Data Statement Mixing Not Supported"),
   (s%"25P01", s%"No Active SQL Transaction"),
   (s%"25P02", s%"In Failed SQL Transaction"),
   (s%"25P03", s%"Idle In Transaction Session Timeout"),
   (s%"25P04", s%"Transaction Timeout"),
   (s%"26000", s%"Invalid SQL Statement Name"),
   (s%"27000", s%"Triggered Data Change Violation"),
   (s%"28000", s%"Invalid Authorization Specification"),
   (s%"28P01", s%"Invalid Password"),
   (s%"2B000", s%"Dependent Privilege Descriptors Still Exist"),
   (s%"2BP01", s%"Dependent Objects Still Exist"),
   (s%"2D000", s%"Invalid Transaction Termination"),
   (s%"2F000", s%"SQL Routine Exception"),
   (s%"2F005", s%"Function Executed No Return Statement"),
   (s%"2F002", s%"SQL Routine Modifying SQL Data Not Permitted"),
   (s%"2F003", s%"SQL Routine Prohibited SQL Statement Attempted"),
   (s%"2F004", s%"SQL Routine Reading SQL Data Not Permitted"),
   (s%"34000", s%"Invalid Cursor Name"),
   (s%"38000", s%"External Routine Exception"),
   (s%"38001", s%"Containing SQL Not Permitted"),
   (s%"38002", s%"External Routine Modifying SQL Data Not Permitted"),
   (s%"38003", s%"External Routine Prohibited SQL Statement Attempted"),
   (s%"38004", s%"External Routine Reading SQL Data Not Permitted"),
   (s%"39000", s%"External Routine Invocation Exception"),
   (s%"39001", s%"Invalid SQL State Returned"),
   (s%"39004", s%"Null Value Not Allowed"),
   (s%"39P01", s%"Trigger Protocol Violated"),
   (s%"39P02", s%"SRF Protocol Violated"),
   (s%"39P03", s%"Event Trigger Protocol Violated"),
   (s%"3B000", s%"Savepoint Exception"),
   (s%"3B001", s%"Invalid Savepoint Specification"),
   (s%"3D000", s%"Invalid Catalog Name"),
   (s%"3F000", s%"Invalid Schema Name"),
   (s%"40000", s%"Transaction Rollback"),
   (s%"40002", s%"Transaction Integrity Constraint Violation"),
   (s%"40001", s%"Serialization Failure"),
   (s%"40003", s%"Statement Completion Unknown"),
   (s%"40P01", s%"Deadlock Detected"),
   (s%"42000", s%"Syntax Error Or Access Rule Violation"),
   (s%"42601", s%"Syntax Error"),
   (s%"42501", s%"Insufficient Privilege"),
   (s%"42846", s%"Cannot Coerce"),
   (s%"42803", s%"Grouping Error"),
   (s%"42P20", s%"Windowing Error"),
   (s%"42P19", s%"Invalid Recursion"),
   (s%"42830", s%"Invalid Foreign Key"),
   (s%"42602", s%"Invalid Name"),
   (s%"42622", s%"Name Too Long"),
   (s%"42939", s%"Reserved Name"),
   (s%"42804", s%"Datatype Mismatch"),
   (s%"42P18", s%"Indeterminate Datatype"),
   (s%"42P21", s%"Collation Mismatch"),
   (s%"42P22", s%"Indeterminate Collation"),
   (s%"42809", s%"Wrong Object Type"),
   (s%"428C9", s%"Generated Always"),
   (s%"42703", s%"Undefined Column"),
   (s%"42883", s%"Undefined Function"),
   (s%"42P01", s%"Undefined Table"),
   (s%"42P02", s%"Undefined Parameter"),
   (s%"42704", s%"Undefined Object"),
   (s%"42701", s%"Duplicate Column"),
   (s%"42P03", s%"Duplicate Cursor"),
   (s%"42P04", s%"Duplicate Database"),
   (s%"42723", s%"Duplicate Function"),
   (s%"42P05", s%"Duplicate Prepared Statement"),
   (s%"42P06", s%"Duplicate Schema"),
   (s%"42P07", s%"Duplicate Table"),
   (s%"42712", s%"Duplicate Alias"),
   (s%"42710", s%"Duplicate Object"),
   (s%"42702", s%"Ambiguous Column"),
   (s%"42725", s%"Ambiguous Function"),
   (s%"42P08", s%"Ambiguous Parameter"),
   (s%"42P09", s%"Ambiguous Alias"),
   (s%"42P10", s%"Invalid Column Reference"),
   (s%"42611", s%"Invalid Column Definition"),
   (s%"42P11", s%"Invalid Cursor Definition"),
   (s%"42P12", s%"Invalid Database Definition"),
   (s%"42P13", s%"Invalid Function Definition"),
   (s%"42P14", s%"Invalid Prepared Statement Definition"),
   (s%"42P15", s%"Invalid Schema Definition"),
   (s%"42P16", s%"Invalid Table Definition"),
   (s%"42P17", s%"Invalid Object Definition"),
   (s%"44000", s%"With Check Option Violation"),
   (s%"53000", s%"Insufficient Resources"),
   (s%"53100", s%"Disk Full"),
   (s%"53200", s%"Out Of Memory"),
   (s%"53300", s%"Too Many Connections"),
   (s%"53400", s%"Configuration Limit Exceeded"),
   (s%"54000", s%"Program Limit Exceeded"),
   (s%"54001", s%"Statement Too Complex"),
   (s%"54011", s%"Too Many Columns"),
   (s%"54023", s%"Too Many Arguments"),
   (s%"55000", s%"Object Not In Prerequisite State"),
   (s%"55006", s%"Object In Use"),
   (s%"55P02", s%"Can't Change Runtime Param"),
   (s%"55P03", s%"Lock Not Available"),
   (s%"55P04", s%"Unsafe New Enum Value Usage"),
   (s%"57000", s%"Operator Intervention"),
   (s%"57014", s%"Query Canceled"),
   (s%"57P01", s%"Admin Shutdown"),
   (s%"57P02", s%"Crash Shutdown"),
   (s%"57P03", s%"Cannot Connect Now"),
   (s%"57P04", s%"Database Dropped"),
   (s%"57P05", s%"Idle Session Timeout"),
   (s%"58000", s%"System Error"),
   (s%"58030", s%"IO Error"),
   (s%"58P01", s%"Undefined File"),
   (s%"58P02", s%"Duplicate File"),
   (s%"F0000", s%"Config File Error"),
   (s%"F0001", s%"Lock File Exists"),
   (s%"HV000", s%"FDW Error"),
   (s%"HV005", s%"FDW Column Name Not Found"),
   (s%"HV002", s%"FDW Dynamic Parameter Value Needed"),
   (s%"HV010", s%"FDW Function Sequence Error"),
   (s%"HV021", s%"FDW Inconsistent Descriptor Information"),
   (s%"HV024", s%"FDW Invalid Attribute Value"),
   (s%"HV007", s%"FDW Invalid Column Name"),
   (s%"HV008", s%"FDW Invalid Column Number"),
   (s%"HV004", s%"FDW Invalid Data Type"),
   (s%"HV006", s%"FDW Invalid Data Type Descriptors"),
   (s%"HV091", s%"FDW Invalid Descriptor Field Identifier"),
   (s%"HV00B", s%"FDW Invalid Handle"),
   (s%"HV00C", s%"FDW Invalid Option Index"),
   (s%"HV00D", s%"FDW Invalid Option Name"),
   (s%"HV090", s%"FDW Invalid String Length"),
   (s%"HV00A", s%"FDW Invalid String Format"),
   (s%"HV009", s%"FDW Invalid Use Of Null Pointer"),
   (s%"HV014", s%"FDW Too Many Handles"),
   (s%"HV001", s%"FDW Out Of Memory"),
   (s%"HV00P", s%"FDW No Schemas"),
   (s%"HV00J", s%"FDW Option Name Not Found"),
   (s%"HV00K", s%"FDW Reply Handle"),
   (s%"HV00Q", s%"FDW Schema Not Found"),
   (s%"HV00R", s%"FDW Table Not Found"),
   (s%"HV00L", s%"FDW Unable To Create Execution"),
   (s%"HV00M", s%"FDW Unable To Create Reply"),
   (s%"HV00N", s%"FDW Unable To Establish Connection"),
   (s%"P0000", s%"PL/PGSQL Error"),
   (s%"P0001", s%"Raise Exception"),
   (s%"P0002", s%"No Data Found"),
   (s%"P0003", s%"Too Many Rows"),
   (s%"P0004", s%"Assert Failure"),
   (s%"XX000", s%"Internal Error"),
   (s%"XX001", s%"Data Corrupted"),
   (s%"XX002", s%"Index Corrupted")]

/-- class.go 23-108: the declared classes, as (constant name, value), in source order. -/
def classDecls : List (Str × Str) :=
  [(s%"Class00", s%"00"),
   (s%"Class01", s%"01"),
   (s%"Class02", s%"02"),
   (s%"Class03", s%"03"),
   (s%"Class08", s%"08"),
   (s%"Class09", s%"09"),
   (s%"Class0A", s%"0A"),
   (s%"Class0B", s%"0B"),
   (s%"Class0F", s%"0F"),
   (s%"Class0L", s%"0L"),
   (s%"Class0P", s%"0P"),
   (s%"Class0Z", s%"0Z"),
   (s%"Class20", s%"20"),
   (s%"Class21", s%"21"),
   (s%"Class22", s%"22"),
   (s%"Class23", s%"23"),
   (s%"Class24", s%"24"),
   (s%"Class25", s%"25"),
   (s%"Class26", s%"26"),
   (s%"Class27", s%"27"),
   (s%"Class28", s%"28"),
   (s%"Class2B", s%"2B"),
   (s%"Class2D", s%"2D"),
   (s%"Class2F", s%"2F"),
   (s%"Class34", s%"34"),
   (s%"Class38", s%"38"),
   (s%"Class39", s%"39"),
   (s%"Class3B", s%"3B"),
   (s%"Class3D", s%"3D"),
   (s%"Class3F", s%"3F"),
   (s%"Class40", s%"40"),
   (s%"Class42", s%"42"),
   (s%"Class44", s%"44"),
   (s%"Class53", s%"53"),
   (s%"Class54", s%"54"),
   (s%"Class55", s%"55"),
   (s%"Class57", s%"57"),
   (s%"Class58", s%"58"),
   (s%"ClassF0", s%"F0"),
   (s%"ClassHV", s%"HV"),
   (s%"ClassP0", s%"P0"),
   (s%"ClassXX", s%"XX")]

/-- class.go 112-197: the cases of the switch, as (value of the case constant, description), in source order. -/
def classCases : List (Str × Str) :=
  [(s%"00", s%"Successful Completion"),
   (s%"01", s%"Warning"),
   (s%"02", s%"No Data"),
   (s%"03", s%"SQL Statement Not Yet Complete"),
   (s%"08", s%"Connection Exception"),
   (s%"09", s%"Triggered Action Exception"),
   (s%"0A", s%"Feature Not Supported"),
   (s%"0B", s%"Invalid Transaction Initiation"),
   (s%"0F", s%"Locator Exception"),
   (s%"0L", s%"Invalid Grantor"),
   (s%"0P", s%"Invalid Role Specification"),
   (s%"0Z", s%"Diagnostics Exception"),
   (s%"20", s%"Case Not Found"),
   (s%"21", s%"Cardinality Violation"),
   (s%"22", s%"Data Exception"),
   (s%"23", s%"Integrity Constraint Violation"),
   (s%"24", s%"Invalid Cursor State"),
   (s%"25", s%"Invalid Transaction State"),
   (s%"26", s%"Invalid SQL Statement Name"),
   (s%"27", s%"Triggered Data Change Violation"),
   (s%"28", s%"Invalid Authorization Specification"),
   (s%"2B", s%"Dependent Privilege Descriptors Still Exist"),
   (s%"2D", s%"Invalid Transaction Termination"),
   (s%"2F", s%"SQL Routine Exception"),
   (s%"34", s%"Invalid Cursor Name"),
   (s%"38", s%"External Routine Exception"),
   (s%"39", s%"External Routine Invocation Exception"),
   (s%"3B", s%"Savepoint Exception"),
   (s%"3D", s%"Invalid Catalog Name"),
   (s%"3F", s%"Invalid Schema Name"),
   (s%"40", s%"Transaction Rollback"),
   (s%"42", s%"Syntax Error or Access Rule Violation"),
   (s%"44", s%"WITH CHECK OPTION Violation"),
   (s%"53", s%"Insufficient Resources"),
   (s%"54", s%"Program Limit Exceeded"),
   (s%"55", s%"Object Not In Prerequisite State"),
   (s%"57", s%"Operator Intervention"),
   (s%"58", s%"System Error"),
   (s%"F0", s%"Configuration File Error"),
   (s%"HV", s%"Foreign Data Wrapper Error (SQL/MED)"),
   (s%"P0", s%"PL/pgSQL Error"),
   (s%"XX", s%"Internal Error")]

/-- A Go `switch` on a string value: the first matching case, else the default. code.go 287-812, class.go 111-199. -/
def switchOn (cases : List (Str × Str)) (dflt : Str) (v : Str) : Str :=
  match cases with
  | [] => dflt
  | c :: cs => if v = c.1 then c.2 else switchOn cs dflt v

/-- code.go 287-812 `Code.String`. -/
def codeString (c : Str) : Str := switchOn codeCases s%"Unknown Code" c

/-- class.go 111-199 `Class.String`. -/
def classString (c : Str) : Str := switchOn classCases s%"Unknown Class" c

/-! ### Error values: errors.go, query.go -/

/-- errors.go 23-44: the sentinel errors. -/
inductive Sentinel | notImplemented | notSupported | notExist | exist | notEqual | invalid | notFound | noRows
  deriving DecidableEq, Repr

/-- errors.go 23-44: their texts. -/
def Sentinel.text : Sentinel → Str
  | .notImplemented => s%"not implemented" | .notSupported => s%"not supported" | .notExist => s%"not exist"
  | .exist => s%"exist" | .notEqual => s%"not equal" | .invalid => s%"invalid" | .notFound => s%"not found"
  | .noRows => s%"no rows"

/-- An error made by `fmt.Errorf`: its message and what a `%w` verb made it wrap. errors.go 47-64, query.go 22-84. -/
structure Err where
  msg : Str
  wraps : Option Sentinel
  deriving DecidableEq, Repr

/-- `errors.Is(err, sentinel)`. errors.go 47-64, query.go 22-84. -/
def Err.is (e : Err) (s : Sentinel) : Bool := e.wraps == some s

/-- errors.go 47-49. -/
def newErrNotImplemented (s : Str) : Err := ⟨s ++ s%" is " ++ Sentinel.text .notImplemented, some .notImplemented⟩
/-- errors.go 52-54. -/
def newErrNotExist (s : Str) : Err := ⟨s ++ s%" is not exists", none⟩
/-- errors.go 57-59. -/
def newErrExist (s : Str) : Err := ⟨s ++ s%" is not exists", none⟩
/-- errors.go 62-64. -/
def newErrNotSupported (s : Str) : Err := ⟨s ++ s%" is not supported", none⟩

/-- query.go: the shape `<what> (<v>) <is> <sentinel>`. query.go 22-84. -/
def errAbout (what v mid : Str) (s : Sentinel) : Err := ⟨what ++ s%" (" ++ v ++ s%") " ++ mid ++ s.text, some s⟩

/-- query.go 22-24. -/
def newErrDatabaseNotExist (v : Str) : Err := errAbout s%"database" v s%"is " .notExist
/-- query.go 27-29. -/
def newErrTableNotExist (v : Str) : Err := errAbout s%"table" v s%"is " .notExist
/-- query.go 32-34. -/
def newErrDatabaseExist (v : Str) : Err := errAbout s%"database" v s%"is " .exist
/-- query.go 37-39. -/
def newErrTableExist (v : Str) : Err := errAbout s%"table" v s%"is " .exist
/-- query.go 42-44; the argument is its `%v` text. -/
def newErrColumnNotExist (v : Str) : Err := errAbout s%"column" v s%"is " .notExist
/-- query.go 47-49; the argument is its `%v` text. -/
def newErrColumnValueNotExist (v : Str) : Err := errAbout s%"column" v s%"value is " .notExist
/-- query.go 52-54; the argument is its `%v` text. -/
def newErrGroupByColumnValueNotFound (v : Str) : Err := errAbout s%"group by column" v s%"value is " .notFound
/-- query.go 57-59. -/
def newErrColumnsNotEqual (a b : Int) : Err :=
  ⟨s%"the number of columns (" ++ Str.ofInt a ++ s%") is " ++ Sentinel.text .notEqual ++
    s%" to the number of schema columns (" ++ Str.ofInt b ++ s%")", some .notEqual⟩
/-- query.go 62-64. -/
def newErrPreparedStatementNotExist (v : Str) : Err := errAbout s%"prepared statement" v s%"is " .notExist
/-- query.go 67-69. -/
def newErrPreparedPortalNotExist (v : Str) : Err := errAbout s%"prepared portal" v s%"is " .notExist
/-- query.go 72-74. -/
def newErrMultiplePreparedStatementNotSupported (v : Str) : Err :=
  errAbout s%"multiple prepared statement" v s%"is " .notSupported
/-- query.go 77-79. -/
def newErrMultipleTableNotSupported (v : Str) : Err := errAbout s%"multiple table" v s%"is " .notSupported
/-- query.go 82-84. -/
def newErrNoTable (v : Str) : Err := ⟨s%"no table specified in query (" ++ v ++ s%")", none⟩

end Verif.Errors
