import Verif.Model.Loader
import Verif.Model.Ship
/-!
The state-history protocol, as an ABI definition: what a program without the C++ types would load to read the messages, traces and rows.
Written by hand from the protocol, not derived from the C++ types: an `extension` is a number and bytes, the state of a transaction is a `uint8`,
data in data is `bytes`, and a trace in a trace is a `transaction_trace`.
-/
namespace Abieos.Spec.Ship

/-- A struct, its base (or `""`) and its fields. -/
def record (name base : String) (fields : List (String × String)) : StructDef :=
  ⟨str name, str base, fields.map fun f => ⟨str f.1, str f.2⟩⟩

/-- A variant and its alternatives. -/
def choice (name : String) (types : List String) : VariantDef := ⟨str name, types.map str⟩

/-- The structs. -/
def structs : List StructDef := [
  record "extension" "" [("type", "uint16"), ("data", "bytes")],
  -- messages
  record "get_status_request_v0" "" [],
  record "block_position" "" [("block_num", "uint32"), ("block_id", "checksum256")],
  record "get_status_result_v0" "" [("head", "block_position"), ("last_irreversible", "block_position"), ("trace_begin_block", "uint32"),
    ("trace_end_block", "uint32"), ("chain_state_begin_block", "uint32"), ("chain_state_end_block", "uint32"), ("chain_id", "checksum256")],
  record "get_blocks_request_v0" "" [("start_block_num", "uint32"), ("end_block_num", "uint32"), ("max_messages_in_flight", "uint32"),
    ("have_positions", "block_position[]"), ("irreversible_only", "bool"), ("fetch_block", "bool"), ("fetch_traces", "bool"), ("fetch_deltas", "bool")],
  record "get_blocks_ack_request_v0" "" [("num_messages", "uint32")],
  record "get_blocks_result_base" "" [("head", "block_position"), ("last_irreversible", "block_position"), ("this_block", "block_position?"),
    ("prev_block", "block_position?")],
  record "get_blocks_result_v0" "get_blocks_result_base" [("block", "bytes?"), ("traces", "bytes?"), ("deltas", "bytes?")],
  record "get_blocks_result_v1" "get_blocks_result_base" [("block", "signed_block_variant?"), ("traces", "bytes"), ("deltas", "bytes")],
  record "row" "" [("present", "bool"), ("data", "bytes")],
  record "table_delta_v0" "" [("name", "string"), ("rows", "row[]")],
  -- traces
  record "permission_level" "" [("actor", "name"), ("permission", "name")],
  record "action" "" [("account", "name"), ("name", "name"), ("authorization", "permission_level[]"), ("data", "bytes")],
  record "account_auth_sequence" "" [("account", "name"), ("sequence", "uint64")],
  record "action_receipt_v0" "" [("receiver", "name"), ("act_digest", "checksum256"), ("global_sequence", "uint64"), ("recv_sequence", "uint64"),
    ("auth_sequence", "account_auth_sequence[]"), ("code_sequence", "varuint32"), ("abi_sequence", "varuint32")],
  record "account_delta" "" [("account", "name"), ("delta", "int64")],
  record "action_trace_v0" "" [("action_ordinal", "varuint32"), ("creator_action_ordinal", "varuint32"), ("receipt", "action_receipt?"),
    ("receiver", "name"), ("act", "action"), ("context_free", "bool"), ("elapsed", "int64"), ("console", "string"),
    ("account_ram_deltas", "account_delta[]"), ("except", "string?"), ("error_code", "uint64?")],
  record "action_trace_v1" "" [("action_ordinal", "varuint32"), ("creator_action_ordinal", "varuint32"), ("receipt", "action_receipt?"),
    ("receiver", "name"), ("act", "action"), ("context_free", "bool"), ("elapsed", "int64"), ("console", "string"),
    ("account_ram_deltas", "account_delta[]"), ("account_disk_deltas", "account_delta[]"), ("except", "string?"), ("error_code", "uint64?"),
    ("return_value", "bytes")],
  record "prunable_data_type" "" [("prunable_data", "prunable_data_t")],
  record "prunable_data_type::none" "" [("prunable_digest", "checksum256")],
  record "prunable_data_type::partial" "" [("signatures", "signature[]"), ("context_free_segments", "segment_type[]")],
  record "prunable_data_type::full" "" [("signatures", "signature[]"), ("context_free_segments", "bytes[]")],
  record "prunable_data_type::full_legacy" "" [("signatures", "signature[]"), ("packed_context_free_data", "bytes")],
  record "partial_transaction_v0" "transaction_header" [("transaction_extensions", "extension[]"), ("signatures", "signature[]"),
    ("context_free_data", "bytes[]")],
  record "partial_transaction_v1" "transaction_header" [("transaction_extensions", "extension[]"), ("prunable_data", "prunable_data_type?")],
  record "transaction_trace_v0" "" [("id", "checksum256"), ("status", "uint8"), ("cpu_usage_us", "uint32"), ("net_usage_words", "varuint32"),
    ("elapsed", "int64"), ("net_usage", "uint64"), ("scheduled", "bool"), ("action_traces", "action_trace[]"),
    ("account_ram_delta", "account_delta?"), ("except", "string?"), ("error_code", "uint64?"), ("failed_dtrx_trace", "transaction_trace[]"),
    ("partial", "partial_transaction?")],
  -- blocks
  record "producer_key" "" [("producer_name", "name"), ("block_signing_key", "public_key")],
  record "producer_schedule" "" [("version", "uint32"), ("producers", "producer_key[]")],
  record "transaction_receipt_header" "" [("status", "uint8"), ("cpu_usage_us", "uint32"), ("net_usage_words", "varuint32")],
  record "packed_transaction_v0" "" [("signatures", "signature[]"), ("compression", "uint8"), ("packed_context_free_data", "bytes"),
    ("packed_trx", "bytes")],
  record "packed_transaction" "" [("compression", "uint8"), ("prunable_data", "prunable_data_type"), ("packed_trx", "bytes")],
  record "transaction_receipt_v0" "transaction_receipt_header" [("trx", "transaction_variant_v0")],
  record "transaction_receipt" "transaction_receipt_header" [("trx", "transaction_variant")],
  record "block_header" "" [("timestamp", "block_timestamp_type"), ("producer", "name"), ("confirmed", "uint16"), ("previous", "checksum256"),
    ("transaction_mroot", "checksum256"), ("action_mroot", "checksum256"), ("schedule_version", "uint32"), ("new_producers", "producer_schedule?"),
    ("header_extensions", "extension[]")],
  record "signed_block_header" "block_header" [("producer_signature", "signature")],
  record "signed_block_v0" "signed_block_header" [("transactions", "transaction_receipt_v0[]"), ("block_extensions", "extension[]")],
  record "signed_block_v1" "signed_block_header" [("prune_state", "uint8"), ("transactions", "transaction_receipt[]"),
    ("block_extensions", "extension[]")],
  record "transaction_header" "" [("expiration", "time_point_sec"), ("ref_block_num", "uint16"), ("ref_block_prefix", "uint32"),
    ("max_net_usage_words", "varuint32"), ("max_cpu_usage_ms", "uint8"), ("delay_sec", "varuint32")],
  record "transaction" "transaction_header" [("context_free_actions", "action[]"), ("actions", "action[]"), ("transaction_extensions", "extension[]")],
  -- accounts and contracts
  record "code_id" "" [("vm_type", "uint8"), ("vm_version", "uint8"), ("code_hash", "checksum256")],
  record "account_v0" "" [("name", "name"), ("creation_date", "block_timestamp_type"), ("abi", "bytes")],
  record "account_metadata_v0" "" [("name", "name"), ("privileged", "bool"), ("last_code_update", "time_point"), ("code", "code_id?")],
  record "code_v0" "" [("vm_type", "uint8"), ("vm_version", "uint8"), ("code_hash", "checksum256"), ("code", "bytes")],
  record "contract_table_v0" "" [("code", "name"), ("scope", "name"), ("table", "name"), ("payer", "name")],
  record "contract_row_v0" "" [("code", "name"), ("scope", "name"), ("table", "name"), ("primary_key", "uint64"), ("payer", "name"),
    ("value", "bytes")],
  record "contract_index64_v0" "" [("code", "name"), ("scope", "name"), ("table", "name"), ("primary_key", "uint64"), ("payer", "name"),
    ("secondary_key", "uint64")],
  record "contract_index128_v0" "" [("code", "name"), ("scope", "name"), ("table", "name"), ("primary_key", "uint64"), ("payer", "name"),
    ("secondary_key", "uint128")],
  record "contract_index256_v0" "" [("code", "name"), ("scope", "name"), ("table", "name"), ("primary_key", "uint64"), ("payer", "name"),
    ("secondary_key", "checksum256")],
  record "contract_index_double_v0" "" [("code", "name"), ("scope", "name"), ("table", "name"), ("primary_key", "uint64"), ("payer", "name"),
    ("secondary_key", "float64")],
  record "contract_index_long_double_v0" "" [("code", "name"), ("scope", "name"), ("table", "name"), ("primary_key", "uint64"), ("payer", "name"),
    ("secondary_key", "float128")],
  record "key_value_v0" "" [("database", "name"), ("contract", "name"), ("key", "bytes"), ("value", "bytes")],
  -- the chain
  record "key_weight" "" [("key", "public_key"), ("weight", "uint16")],
  record "block_signing_authority_v0" "" [("threshold", "uint32"), ("keys", "key_weight[]")],
  record "producer_authority" "" [("producer_name", "name"), ("authority", "block_signing_authority")],
  record "producer_authority_schedule" "" [("version", "uint32"), ("producers", "producer_authority[]")],
  record "chain_config_v0" "" [("max_block_net_usage", "uint64"), ("target_block_net_usage_pct", "uint32"), ("max_transaction_net_usage", "uint32"),
    ("base_per_transaction_net_usage", "uint32"), ("net_usage_leeway", "uint32"), ("context_free_discount_net_usage_num", "uint32"),
    ("context_free_discount_net_usage_den", "uint32"), ("max_block_cpu_usage", "uint32"), ("target_block_cpu_usage_pct", "uint32"),
    ("max_transaction_cpu_usage", "uint32"), ("min_transaction_cpu_usage", "uint32"), ("max_transaction_lifetime", "uint32"),
    ("deferred_trx_expiration_window", "uint32"), ("max_transaction_delay", "uint32"), ("max_inline_action_size", "uint32"),
    ("max_inline_action_depth", "uint16"), ("max_authority_depth", "uint16")],
  record "global_property_v0" "" [("proposed_schedule_block_num", "uint32?"), ("proposed_schedule", "producer_schedule"),
    ("configuration", "chain_config")],
  record "global_property_v1" "" [("proposed_schedule_block_num", "uint32?"), ("proposed_schedule", "producer_authority_schedule"),
    ("configuration", "chain_config"), ("chain_id", "checksum256")],
  record "generated_transaction_v0" "" [("sender", "name"), ("sender_id", "uint128"), ("payer", "name"), ("trx_id", "checksum256"),
    ("packed_trx", "bytes")],
  record "activated_protocol_feature_v0" "" [("feature_digest", "checksum256"), ("activation_block_num", "uint32")],
  record "protocol_state_v0" "" [("activated_protocol_features", "activated_protocol_feature[]")],
  -- permissions
  record "permission_level_weight" "" [("permission", "permission_level"), ("weight", "uint16")],
  record "wait_weight" "" [("wait_sec", "uint32"), ("weight", "uint16")],
  record "authority" "" [("threshold", "uint32"), ("keys", "key_weight[]"), ("accounts", "permission_level_weight[]"), ("waits", "wait_weight[]")],
  record "permission_v0" "" [("owner", "name"), ("name", "name"), ("parent", "name"), ("last_updated", "time_point"), ("auth", "authority")],
  record "permission_link_v0" "" [("account", "name"), ("code", "name"), ("message_type", "name"), ("required_permission", "name")],
  -- resources
  record "resource_limits_v0" "" [("owner", "name"), ("net_weight", "int64"), ("cpu_weight", "int64"), ("ram_bytes", "int64")],
  record "usage_accumulator_v0" "" [("last_ordinal", "uint32"), ("value_ex", "uint64"), ("consumed", "uint64")],
  record "resource_usage_v0" "" [("owner", "name"), ("net_usage", "usage_accumulator"), ("cpu_usage", "usage_accumulator"), ("ram_usage", "uint64")],
  record "resource_limits_state_v0" "" [("average_block_net_usage", "usage_accumulator"), ("average_block_cpu_usage", "usage_accumulator"),
    ("total_net_weight", "uint64"), ("total_cpu_weight", "uint64"), ("total_ram_bytes", "uint64"), ("virtual_net_limit", "uint64"),
    ("virtual_cpu_limit", "uint64")],
  record "resource_limits_ratio_v0" "" [("numerator", "uint64"), ("denominator", "uint64")],
  record "elastic_limit_parameters_v0" "" [("target", "uint64"), ("max", "uint64"), ("periods", "uint32"), ("max_multiplier", "uint32"),
    ("contract_rate", "resource_limits_ratio"), ("expand_rate", "resource_limits_ratio")],
  record "resource_limits_config_v0" "" [("cpu_limit_parameters", "elastic_limit_parameters"), ("net_limit_parameters", "elastic_limit_parameters"),
    ("account_cpu_usage_average_window", "uint32"), ("account_net_usage_average_window", "uint32")]]

/-- The variants. -/
def choices : List VariantDef := [
  choice "request" ["get_status_request_v0", "get_blocks_request_v0", "get_blocks_ack_request_v0"],
  choice "result" ["get_status_result_v0", "get_blocks_result_v0", "get_blocks_result_v1"],
  choice "table_delta" ["table_delta_v0"],
  choice "action_receipt" ["action_receipt_v0"],
  choice "action_trace" ["action_trace_v0", "action_trace_v1"],
  choice "segment_type" ["checksum256", "bytes"],
  choice "prunable_data_t" ["prunable_data_type::full_legacy", "prunable_data_type::none", "prunable_data_type::partial", "prunable_data_type::full"],
  choice "partial_transaction" ["partial_transaction_v0", "partial_transaction_v1"],
  choice "transaction_trace" ["transaction_trace_v0"],
  choice "transaction_variant_v0" ["checksum256", "packed_transaction_v0"],
  choice "transaction_variant" ["checksum256", "packed_transaction"],
  choice "signed_block_variant" ["signed_block_v0", "signed_block_v1"],
  choice "account" ["account_v0"],
  choice "account_metadata" ["account_metadata_v0"],
  choice "code" ["code_v0"],
  choice "contract_table" ["contract_table_v0"],
  choice "contract_row" ["contract_row_v0"],
  choice "contract_index64" ["contract_index64_v0"],
  choice "contract_index128" ["contract_index128_v0"],
  choice "contract_index256" ["contract_index256_v0"],
  choice "contract_index_double" ["contract_index_double_v0"],
  choice "contract_index_long_double" ["contract_index_long_double_v0"],
  choice "key_value" ["key_value_v0"],
  choice "block_signing_authority" ["block_signing_authority_v0"],
  choice "chain_config" ["chain_config_v0"],
  choice "global_property" ["global_property_v0", "global_property_v1"],
  choice "generated_transaction" ["generated_transaction_v0"],
  choice "activated_protocol_feature" ["activated_protocol_feature_v0"],
  choice "protocol_state" ["protocol_state_v0"],
  choice "permission" ["permission_v0"],
  choice "permission_link" ["permission_link_v0"],
  choice "resource_limits" ["resource_limits_v0"],
  choice "usage_accumulator" ["usage_accumulator_v0"],
  choice "resource_usage" ["resource_usage_v0"],
  choice "resource_limits_state" ["resource_limits_state_v0"],
  choice "resource_limits_ratio" ["resource_limits_ratio_v0"],
  choice "elastic_limit_parameters" ["elastic_limit_parameters_v0"],
  choice "resource_limits_config" ["resource_limits_config_v0"]]

/-- The ABI of the state-history protocol. -/
def abi : AbiDef :=
  { version := str "eosio::abi/1.1", types := [], structs := structs, actions := [], tables := [], clauses := [], errors := [], extensions := [],
    variants := choices }

/-- The C++ types of messages, traces and rows, and of the arrays in results, and what the ABI calls them. -/
def named : List (List UInt8 × CTy) := [
  (str "request", Abieos.Ship.requestTy), (str "table_delta", Abieos.Ship.table_deltaTy), (str "action_receipt", Abieos.Ship.action_receiptTy),
  (str "action_trace", Abieos.Ship.action_traceTy), (str "partial_transaction", Abieos.Ship.partial_transactionTy),
  (str "transaction_trace", Abieos.Ship.transaction_traceTy), (str "transaction_variant_v0", Abieos.Ship.transaction_variant_v0Ty),
  (str "transaction_variant", Abieos.Ship.transaction_variantTy), (str "signed_block_variant", Abieos.Ship.signed_block_variantTy),
  (str "result", Abieos.Ship.resultTy), (str "account", Abieos.Ship.accountTy), (str "account_metadata", Abieos.Ship.account_metadataTy),
  (str "code", Abieos.Ship.codeTy), (str "contract_table", Abieos.Ship.contract_tableTy), (str "contract_row", Abieos.Ship.contract_rowTy),
  (str "contract_index64", Abieos.Ship.contract_index64Ty), (str "contract_index128", Abieos.Ship.contract_index128Ty),
  (str "contract_index256", Abieos.Ship.contract_index256Ty), (str "contract_index_double", Abieos.Ship.contract_index_doubleTy),
  (str "contract_index_long_double", Abieos.Ship.contract_index_long_doubleTy), (str "key_value", Abieos.Ship.key_valueTy),
  (str "block_signing_authority", Abieos.Ship.block_signing_authorityTy), (str "chain_config", Abieos.Ship.chain_configTy),
  (str "global_property", Abieos.Ship.global_propertyTy), (str "generated_transaction", Abieos.Ship.generated_transactionTy),
  (str "activated_protocol_feature", Abieos.Ship.activated_protocol_featureTy), (str "protocol_state", Abieos.Ship.protocol_stateTy),
  (str "permission", Abieos.Ship.permissionTy), (str "permission_link", Abieos.Ship.permission_linkTy),
  (str "resource_limits", Abieos.Ship.resource_limitsTy), (str "usage_accumulator", Abieos.Ship.usage_accumulatorTy),
  (str "resource_usage", Abieos.Ship.resource_usageTy), (str "resource_limits_state", Abieos.Ship.resource_limits_stateTy),
  (str "resource_limits_ratio", Abieos.Ship.resource_limits_ratioTy), (str "elastic_limit_parameters", Abieos.Ship.elastic_limit_parametersTy),
  (str "resource_limits_config", Abieos.Ship.resource_limits_configTy), (str "table_delta[]", .vec Abieos.Ship.table_deltaTy),
  (str "transaction_trace[]", .vec Abieos.Ship.transaction_traceTy)]

/-- `type` is the ABI's name of the C++ type `t`. -/
def Kind (type : List UInt8) (t : CTy) : Prop := (∃ r ∈ structs, type = r.name ∧ t = .struct r.name) ∨ (type, t) ∈ named

end Abieos.Spec.Ship
