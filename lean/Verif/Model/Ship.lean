import Verif.Model.StaticValue
/-!
The types of the state-history protocol (include/eosio/ship_protocol.hpp), generated by tools/ship.py from the header: the structs with their
reflected members, those of the base first, and the variants.

Simplified: an `eosio::input_stream` and an `eosio::opaque<T>` have the binary form of `bytes` (a size and so many bytes; C62 is about what is
inside); `transaction_status` is the number it is stored as; `recurse_transaction_trace` (339-351), which is serialized as the
`transaction_trace` in it, is that. Their JSON is in Model/ShipJson.
-/
namespace Abieos
namespace Ship

/-- ship_protocol.hpp:36-41 -/
def extension : Bytes × List (Bytes × CTy) := (str "extension", [(str "type", .leaf .uint16),
  (str "data", .leaf .bytes)])

/-- ship_protocol.hpp:84-86 -/
def get_status_request_v0 : Bytes × List (Bytes × CTy) := (str "get_status_request_v0", [])

/-- ship_protocol.hpp:88-93 -/
def block_position : Bytes × List (Bytes × CTy) := (str "block_position", [(str "block_num", .leaf .uint32),
  (str "block_id", .leaf .checksum256)])

/-- ship_protocol.hpp:95-106 -/
def get_status_result_v0 : Bytes × List (Bytes × CTy) := (str "get_status_result_v0", [(str "head", .struct (str "block_position")),
  (str "last_irreversible", .struct (str "block_position")),
  (str "trace_begin_block", .leaf .uint32),
  (str "trace_end_block", .leaf .uint32),
  (str "chain_state_begin_block", .leaf .uint32),
  (str "chain_state_end_block", .leaf .uint32),
  (str "chain_id", .leaf .checksum256)])

/-- ship_protocol.hpp:108-120 -/
def get_blocks_request_v0 : Bytes × List (Bytes × CTy) := (str "get_blocks_request_v0", [(str "start_block_num", .leaf .uint32),
  (str "end_block_num", .leaf .uint32),
  (str "max_messages_in_flight", .leaf .uint32),
  (str "have_positions", .vec (.struct (str "block_position"))),
  (str "irreversible_only", .leaf .bool),
  (str "fetch_block", .leaf .bool),
  (str "fetch_traces", .leaf .bool),
  (str "fetch_deltas", .leaf .bool)])

/-- ship_protocol.hpp:122-126 -/
def get_blocks_ack_request_v0 : Bytes × List (Bytes × CTy) := (str "get_blocks_ack_request_v0", [(str "num_messages", .leaf .uint32)])

/-- ship_protocol.hpp:130-137 -/
def get_blocks_result_base : Bytes × List (Bytes × CTy) := (str "get_blocks_result_base", [(str "head", .struct (str "block_position")),
  (str "last_irreversible", .struct (str "block_position")),
  (str "this_block", .opt (.struct (str "block_position"))),
  (str "prev_block", .opt (.struct (str "block_position")))])

/-- ship_protocol.hpp:139-145 -/
def get_blocks_result_v0 : Bytes × List (Bytes × CTy) := (str "get_blocks_result_v0", [(str "head", .struct (str "block_position")),
  (str "last_irreversible", .struct (str "block_position")),
  (str "this_block", .opt (.struct (str "block_position"))),
  (str "prev_block", .opt (.struct (str "block_position"))),
  (str "block", .opt (.leaf .bytes)),
  (str "traces", .opt (.leaf .bytes)),
  (str "deltas", .opt (.leaf .bytes))])

/-- ship_protocol.hpp:147-152 -/
def row : Bytes × List (Bytes × CTy) := (str "row", [(str "present", .leaf .bool),
  (str "data", .leaf .bytes)])

/-- ship_protocol.hpp:154-159 -/
def table_delta_v0 : Bytes × List (Bytes × CTy) := (str "table_delta_v0", [(str "name", .leaf .string),
  (str "rows", .vec (.struct (str "row")))])

/-- ship_protocol.hpp:163-168 -/
def permission_level : Bytes × List (Bytes × CTy) := (str "permission_level", [(str "actor", .leaf .name),
  (str "permission", .leaf .name)])

/-- ship_protocol.hpp:170-177 -/
def action : Bytes × List (Bytes × CTy) := (str "action", [(str "account", .leaf .name),
  (str "name", .leaf .name),
  (str "authorization", .vec (.struct (str "permission_level"))),
  (str "data", .leaf .bytes)])

/-- ship_protocol.hpp:179-184 -/
def account_auth_sequence : Bytes × List (Bytes × CTy) := (str "account_auth_sequence", [(str "account", .leaf .name),
  (str "sequence", .leaf .uint64)])

/-- ship_protocol.hpp:187-198 -/
def action_receipt_v0 : Bytes × List (Bytes × CTy) := (str "action_receipt_v0", [(str "receiver", .leaf .name),
  (str "act_digest", .leaf .checksum256),
  (str "global_sequence", .leaf .uint64),
  (str "recv_sequence", .leaf .uint64),
  (str "auth_sequence", .vec (.struct (str "account_auth_sequence"))),
  (str "code_sequence", .leaf .varuint32),
  (str "abi_sequence", .leaf .varuint32)])

/-- ship_protocol.hpp:202-207 -/
def account_delta : Bytes × List (Bytes × CTy) := (str "account_delta", [(str "account", .leaf .name),
  (str "delta", .leaf .int64)])

/-- ship_protocol.hpp:210-225 -/
def action_trace_v0 : Bytes × List (Bytes × CTy) := (str "action_trace_v0", [(str "action_ordinal", .leaf .varuint32),
  (str "creator_action_ordinal", .leaf .varuint32),
  (str "receipt", .opt (.variant [.struct (str "action_receipt_v0")])),
  (str "receiver", .leaf .name),
  (str "act", .struct (str "action")),
  (str "context_free", .leaf .bool),
  (str "elapsed", .leaf .int64),
  (str "console", .leaf .string),
  (str "account_ram_deltas", .vec (.struct (str "account_delta"))),
  (str "except", .opt (.leaf .string)),
  (str "error_code", .opt (.leaf .uint64))])

/-- ship_protocol.hpp:227-244 -/
def action_trace_v1 : Bytes × List (Bytes × CTy) := (str "action_trace_v1", [(str "action_ordinal", .leaf .varuint32),
  (str "creator_action_ordinal", .leaf .varuint32),
  (str "receipt", .opt (.variant [.struct (str "action_receipt_v0")])),
  (str "receiver", .leaf .name),
  (str "act", .struct (str "action")),
  (str "context_free", .leaf .bool),
  (str "elapsed", .leaf .int64),
  (str "console", .leaf .string),
  (str "account_ram_deltas", .vec (.struct (str "account_delta"))),
  (str "account_disk_deltas", .vec (.struct (str "account_delta"))),
  (str "except", .opt (.leaf .string)),
  (str "error_code", .opt (.leaf .uint64)),
  (str "return_value", .leaf .bytes)])

/-- ship_protocol.hpp:248-275 -/
def prunable_data_type : Bytes × List (Bytes × CTy) := (str "prunable_data_type", [(str "prunable_data", .variant [.struct (str "prunable_data_type::full_legacy"), .struct (str "prunable_data_type::none"), .struct (str "prunable_data_type::partial"), .struct (str "prunable_data_type::full")])])

/-- ship_protocol.hpp:249-276 -/
def prunable_data_type_none : Bytes × List (Bytes × CTy) := (str "prunable_data_type::none", [(str "prunable_digest", .leaf .checksum256)])

/-- ship_protocol.hpp:255-277 -/
def prunable_data_type_partial : Bytes × List (Bytes × CTy) := (str "prunable_data_type::partial", [(str "signatures", .vec (.leaf .signature)),
  (str "context_free_segments", .vec (.variant [.leaf .checksum256, .leaf .bytes]))])

/-- ship_protocol.hpp:260-278 -/
def prunable_data_type_full : Bytes × List (Bytes × CTy) := (str "prunable_data_type::full", [(str "signatures", .vec (.leaf .signature)),
  (str "context_free_segments", .vec (.leaf .bytes))])

/-- ship_protocol.hpp:265-279 -/
def prunable_data_type_full_legacy : Bytes × List (Bytes × CTy) := (str "prunable_data_type::full_legacy", [(str "signatures", .vec (.leaf .signature)),
  (str "packed_context_free_data", .leaf .bytes)])

/-- ship_protocol.hpp:281-294 -/
def partial_transaction_v0 : Bytes × List (Bytes × CTy) := (str "partial_transaction_v0", [(str "expiration", .leaf .time_point_sec),
  (str "ref_block_num", .leaf .uint16),
  (str "ref_block_prefix", .leaf .uint32),
  (str "max_net_usage_words", .leaf .varuint32),
  (str "max_cpu_usage_ms", .leaf .uint8),
  (str "delay_sec", .leaf .varuint32),
  (str "transaction_extensions", .vec (.struct (str "extension"))),
  (str "signatures", .vec (.leaf .signature)),
  (str "context_free_data", .vec (.leaf .bytes))])

/-- ship_protocol.hpp:296-308 -/
def partial_transaction_v1 : Bytes × List (Bytes × CTy) := (str "partial_transaction_v1", [(str "expiration", .leaf .time_point_sec),
  (str "ref_block_num", .leaf .uint16),
  (str "ref_block_prefix", .leaf .uint32),
  (str "max_net_usage_words", .leaf .varuint32),
  (str "max_cpu_usage_ms", .leaf .uint8),
  (str "delay_sec", .leaf .varuint32),
  (str "transaction_extensions", .vec (.struct (str "extension"))),
  (str "prunable_data", .opt (.struct (str "prunable_data_type")))])

/-- ship_protocol.hpp:314-331 -/
def transaction_trace_v0 : Bytes × List (Bytes × CTy) := (str "transaction_trace_v0", [(str "id", .leaf .checksum256),
  (str "status", .leaf .uint8),
  (str "cpu_usage_us", .leaf .uint32),
  (str "net_usage_words", .leaf .varuint32),
  (str "elapsed", .leaf .int64),
  (str "net_usage", .leaf .uint64),
  (str "scheduled", .leaf .bool),
  (str "action_traces", .vec (.variant [.struct (str "action_trace_v0"), .struct (str "action_trace_v1")])),
  (str "account_ram_delta", .opt (.struct (str "account_delta"))),
  (str "except", .opt (.leaf .string)),
  (str "error_code", .opt (.leaf .uint64)),
  (str "failed_dtrx_trace", .vec (.variant [.struct (str "transaction_trace_v0")])),
  (str "partial", .opt (.variant [.struct (str "partial_transaction_v0"), .struct (str "partial_transaction_v1")]))])

/-- ship_protocol.hpp:354-359 -/
def producer_key : Bytes × List (Bytes × CTy) := (str "producer_key", [(str "producer_name", .leaf .name),
  (str "block_signing_key", .leaf .public_key)])

/-- ship_protocol.hpp:361-366 -/
def producer_schedule : Bytes × List (Bytes × CTy) := (str "producer_schedule", [(str "version", .leaf .uint32),
  (str "producers", .vec (.struct (str "producer_key")))])

/-- ship_protocol.hpp:368-374 -/
def transaction_receipt_header : Bytes × List (Bytes × CTy) := (str "transaction_receipt_header", [(str "status", .leaf .uint8),
  (str "cpu_usage_us", .leaf .uint32),
  (str "net_usage_words", .leaf .varuint32)])

/-- ship_protocol.hpp:376-383 -/
def packed_transaction_v0 : Bytes × List (Bytes × CTy) := (str "packed_transaction_v0", [(str "signatures", .vec (.leaf .signature)),
  (str "compression", .leaf .uint8),
  (str "packed_context_free_data", .leaf .bytes),
  (str "packed_trx", .leaf .bytes)])

/-- ship_protocol.hpp:385-391 -/
def packed_transaction : Bytes × List (Bytes × CTy) := (str "packed_transaction", [(str "compression", .leaf .uint8),
  (str "prunable_data", .struct (str "prunable_data_type")),
  (str "packed_trx", .leaf .bytes)])

/-- ship_protocol.hpp:395-399 -/
def transaction_receipt_v0 : Bytes × List (Bytes × CTy) := (str "transaction_receipt_v0", [(str "status", .leaf .uint8),
  (str "cpu_usage_us", .leaf .uint32),
  (str "net_usage_words", .leaf .varuint32),
  (str "trx", .variant [.leaf .checksum256, .struct (str "packed_transaction_v0")])])

/-- ship_protocol.hpp:403-407 -/
def transaction_receipt : Bytes × List (Bytes × CTy) := (str "transaction_receipt", [(str "status", .leaf .uint8),
  (str "cpu_usage_us", .leaf .uint32),
  (str "net_usage_words", .leaf .varuint32),
  (str "trx", .variant [.leaf .checksum256, .struct (str "packed_transaction")])])

/-- ship_protocol.hpp:409-422 -/
def block_header : Bytes × List (Bytes × CTy) := (str "block_header", [(str "timestamp", .leaf .block_timestamp),
  (str "producer", .leaf .name),
  (str "confirmed", .leaf .uint16),
  (str "previous", .leaf .checksum256),
  (str "transaction_mroot", .leaf .checksum256),
  (str "action_mroot", .leaf .checksum256),
  (str "schedule_version", .leaf .uint32),
  (str "new_producers", .opt (.struct (str "producer_schedule"))),
  (str "header_extensions", .vec (.struct (str "extension")))])

/-- ship_protocol.hpp:424-428 -/
def signed_block_header : Bytes × List (Bytes × CTy) := (str "signed_block_header", [(str "timestamp", .leaf .block_timestamp),
  (str "producer", .leaf .name),
  (str "confirmed", .leaf .uint16),
  (str "previous", .leaf .checksum256),
  (str "transaction_mroot", .leaf .checksum256),
  (str "action_mroot", .leaf .checksum256),
  (str "schedule_version", .leaf .uint32),
  (str "new_producers", .opt (.struct (str "producer_schedule"))),
  (str "header_extensions", .vec (.struct (str "extension"))),
  (str "producer_signature", .leaf .signature)])

/-- ship_protocol.hpp:430-435 -/
def signed_block_v0 : Bytes × List (Bytes × CTy) := (str "signed_block_v0", [(str "timestamp", .leaf .block_timestamp),
  (str "producer", .leaf .name),
  (str "confirmed", .leaf .uint16),
  (str "previous", .leaf .checksum256),
  (str "transaction_mroot", .leaf .checksum256),
  (str "action_mroot", .leaf .checksum256),
  (str "schedule_version", .leaf .uint32),
  (str "new_producers", .opt (.struct (str "producer_schedule"))),
  (str "header_extensions", .vec (.struct (str "extension"))),
  (str "producer_signature", .leaf .signature),
  (str "transactions", .vec (.struct (str "transaction_receipt_v0"))),
  (str "block_extensions", .vec (.struct (str "extension")))])

/-- ship_protocol.hpp:437-443 -/
def signed_block_v1 : Bytes × List (Bytes × CTy) := (str "signed_block_v1", [(str "timestamp", .leaf .block_timestamp),
  (str "producer", .leaf .name),
  (str "confirmed", .leaf .uint16),
  (str "previous", .leaf .checksum256),
  (str "transaction_mroot", .leaf .checksum256),
  (str "action_mroot", .leaf .checksum256),
  (str "schedule_version", .leaf .uint32),
  (str "new_producers", .opt (.struct (str "producer_schedule"))),
  (str "header_extensions", .vec (.struct (str "extension"))),
  (str "producer_signature", .leaf .signature),
  (str "prune_state", .leaf .uint8),
  (str "transactions", .vec (.struct (str "transaction_receipt"))),
  (str "block_extensions", .vec (.struct (str "extension")))])

/-- ship_protocol.hpp:447-453 -/
def get_blocks_result_v1 : Bytes × List (Bytes × CTy) := (str "get_blocks_result_v1", [(str "head", .struct (str "block_position")),
  (str "last_irreversible", .struct (str "block_position")),
  (str "this_block", .opt (.struct (str "block_position"))),
  (str "prev_block", .opt (.struct (str "block_position"))),
  (str "block", .opt (.variant [.struct (str "signed_block_v0"), .struct (str "signed_block_v1")])),
  (str "traces", .leaf .bytes),
  (str "deltas", .leaf .bytes)])

/-- ship_protocol.hpp:456-466 -/
def transaction_header : Bytes × List (Bytes × CTy) := (str "transaction_header", [(str "expiration", .leaf .time_point_sec),
  (str "ref_block_num", .leaf .uint16),
  (str "ref_block_prefix", .leaf .uint32),
  (str "max_net_usage_words", .leaf .varuint32),
  (str "max_cpu_usage_ms", .leaf .uint8),
  (str "delay_sec", .leaf .varuint32)])

/-- ship_protocol.hpp:468-474 -/
def transaction : Bytes × List (Bytes × CTy) := (str "transaction", [(str "expiration", .leaf .time_point_sec),
  (str "ref_block_num", .leaf .uint16),
  (str "ref_block_prefix", .leaf .uint32),
  (str "max_net_usage_words", .leaf .varuint32),
  (str "max_cpu_usage_ms", .leaf .uint8),
  (str "delay_sec", .leaf .varuint32),
  (str "context_free_actions", .vec (.struct (str "action"))),
  (str "actions", .vec (.struct (str "action"))),
  (str "transaction_extensions", .vec (.struct (str "extension")))])

/-- ship_protocol.hpp:476-482 -/
def code_id : Bytes × List (Bytes × CTy) := (str "code_id", [(str "vm_type", .leaf .uint8),
  (str "vm_version", .leaf .uint8),
  (str "code_hash", .leaf .checksum256)])

/-- ship_protocol.hpp:484-490 -/
def account_v0 : Bytes × List (Bytes × CTy) := (str "account_v0", [(str "name", .leaf .name),
  (str "creation_date", .leaf .block_timestamp),
  (str "abi", .leaf .bytes)])

/-- ship_protocol.hpp:494-501 -/
def account_metadata_v0 : Bytes × List (Bytes × CTy) := (str "account_metadata_v0", [(str "name", .leaf .name),
  (str "privileged", .leaf .bool),
  (str "last_code_update", .leaf .time_point),
  (str "code", .opt (.struct (str "code_id")))])

/-- ship_protocol.hpp:505-512 -/
def code_v0 : Bytes × List (Bytes × CTy) := (str "code_v0", [(str "vm_type", .leaf .uint8),
  (str "vm_version", .leaf .uint8),
  (str "code_hash", .leaf .checksum256),
  (str "code", .leaf .bytes)])

/-- ship_protocol.hpp:516-523 -/
def contract_table_v0 : Bytes × List (Bytes × CTy) := (str "contract_table_v0", [(str "code", .leaf .name),
  (str "scope", .leaf .name),
  (str "table", .leaf .name),
  (str "payer", .leaf .name)])

/-- ship_protocol.hpp:527-536 -/
def contract_row_v0 : Bytes × List (Bytes × CTy) := (str "contract_row_v0", [(str "code", .leaf .name),
  (str "scope", .leaf .name),
  (str "table", .leaf .name),
  (str "primary_key", .leaf .uint64),
  (str "payer", .leaf .name),
  (str "value", .leaf .bytes)])

/-- ship_protocol.hpp:540-549 -/
def contract_index64_v0 : Bytes × List (Bytes × CTy) := (str "contract_index64_v0", [(str "code", .leaf .name),
  (str "scope", .leaf .name),
  (str "table", .leaf .name),
  (str "primary_key", .leaf .uint64),
  (str "payer", .leaf .name),
  (str "secondary_key", .leaf .uint64)])

/-- ship_protocol.hpp:553-562 -/
def contract_index128_v0 : Bytes × List (Bytes × CTy) := (str "contract_index128_v0", [(str "code", .leaf .name),
  (str "scope", .leaf .name),
  (str "table", .leaf .name),
  (str "primary_key", .leaf .uint64),
  (str "payer", .leaf .name),
  (str "secondary_key", .leaf .uint128)])

/-- ship_protocol.hpp:566-575 -/
def contract_index256_v0 : Bytes × List (Bytes × CTy) := (str "contract_index256_v0", [(str "code", .leaf .name),
  (str "scope", .leaf .name),
  (str "table", .leaf .name),
  (str "primary_key", .leaf .uint64),
  (str "payer", .leaf .name),
  (str "secondary_key", .leaf .checksum256)])

/-- ship_protocol.hpp:579-588 -/
def contract_index_double_v0 : Bytes × List (Bytes × CTy) := (str "contract_index_double_v0", [(str "code", .leaf .name),
  (str "scope", .leaf .name),
  (str "table", .leaf .name),
  (str "primary_key", .leaf .uint64),
  (str "payer", .leaf .name),
  (str "secondary_key", .leaf .float64)])

/-- ship_protocol.hpp:592-601 -/
def contract_index_long_double_v0 : Bytes × List (Bytes × CTy) := (str "contract_index_long_double_v0", [(str "code", .leaf .name),
  (str "scope", .leaf .name),
  (str "table", .leaf .name),
  (str "primary_key", .leaf .uint64),
  (str "payer", .leaf .name),
  (str "secondary_key", .leaf .float128)])

/-- ship_protocol.hpp:605-612 -/
def key_value_v0 : Bytes × List (Bytes × CTy) := (str "key_value_v0", [(str "database", .leaf .name),
  (str "contract", .leaf .name),
  (str "key", .leaf .bytes),
  (str "value", .leaf .bytes)])

/-- ship_protocol.hpp:616-621 -/
def key_weight : Bytes × List (Bytes × CTy) := (str "key_weight", [(str "key", .leaf .public_key),
  (str "weight", .leaf .uint16)])

/-- ship_protocol.hpp:623-628 -/
def block_signing_authority_v0 : Bytes × List (Bytes × CTy) := (str "block_signing_authority_v0", [(str "threshold", .leaf .uint32),
  (str "keys", .vec (.struct (str "key_weight")))])

/-- ship_protocol.hpp:632-637 -/
def producer_authority : Bytes × List (Bytes × CTy) := (str "producer_authority", [(str "producer_name", .leaf .name),
  (str "authority", .variant [.struct (str "block_signing_authority_v0")])])

/-- ship_protocol.hpp:639-644 -/
def producer_authority_schedule : Bytes × List (Bytes × CTy) := (str "producer_authority_schedule", [(str "version", .leaf .uint32),
  (str "producers", .vec (.struct (str "producer_authority")))])

/-- ship_protocol.hpp:646-671 -/
def chain_config_v0 : Bytes × List (Bytes × CTy) := (str "chain_config_v0", [(str "max_block_net_usage", .leaf .uint64),
  (str "target_block_net_usage_pct", .leaf .uint32),
  (str "max_transaction_net_usage", .leaf .uint32),
  (str "base_per_transaction_net_usage", .leaf .uint32),
  (str "net_usage_leeway", .leaf .uint32),
  (str "context_free_discount_net_usage_num", .leaf .uint32),
  (str "context_free_discount_net_usage_den", .leaf .uint32),
  (str "max_block_cpu_usage", .leaf .uint32),
  (str "target_block_cpu_usage_pct", .leaf .uint32),
  (str "max_transaction_cpu_usage", .leaf .uint32),
  (str "min_transaction_cpu_usage", .leaf .uint32),
  (str "max_transaction_lifetime", .leaf .uint32),
  (str "deferred_trx_expiration_window", .leaf .uint32),
  (str "max_transaction_delay", .leaf .uint32),
  (str "max_inline_action_size", .leaf .uint32),
  (str "max_inline_action_depth", .leaf .uint16),
  (str "max_authority_depth", .leaf .uint16)])

/-- ship_protocol.hpp:675-681 -/
def global_property_v0 : Bytes × List (Bytes × CTy) := (str "global_property_v0", [(str "proposed_schedule_block_num", .opt (.leaf .uint32)),
  (str "proposed_schedule", .struct (str "producer_schedule")),
  (str "configuration", .variant [.struct (str "chain_config_v0")])])

/-- ship_protocol.hpp:683-690 -/
def global_property_v1 : Bytes × List (Bytes × CTy) := (str "global_property_v1", [(str "proposed_schedule_block_num", .opt (.leaf .uint32)),
  (str "proposed_schedule", .struct (str "producer_authority_schedule")),
  (str "configuration", .variant [.struct (str "chain_config_v0")]),
  (str "chain_id", .leaf .checksum256)])

/-- ship_protocol.hpp:694-702 -/
def generated_transaction_v0 : Bytes × List (Bytes × CTy) := (str "generated_transaction_v0", [(str "sender", .leaf .name),
  (str "sender_id", .leaf .uint128),
  (str "payer", .leaf .name),
  (str "trx_id", .leaf .checksum256),
  (str "packed_trx", .leaf .bytes)])

/-- ship_protocol.hpp:706-711 -/
def activated_protocol_feature_v0 : Bytes × List (Bytes × CTy) := (str "activated_protocol_feature_v0", [(str "feature_digest", .leaf .checksum256),
  (str "activation_block_num", .leaf .uint32)])

/-- ship_protocol.hpp:715-719 -/
def protocol_state_v0 : Bytes × List (Bytes × CTy) := (str "protocol_state_v0", [(str "activated_protocol_features", .vec (.variant [.struct (str "activated_protocol_feature_v0")]))])

/-- ship_protocol.hpp:723-728 -/
def permission_level_weight : Bytes × List (Bytes × CTy) := (str "permission_level_weight", [(str "permission", .struct (str "permission_level")),
  (str "weight", .leaf .uint16)])

/-- ship_protocol.hpp:730-735 -/
def wait_weight : Bytes × List (Bytes × CTy) := (str "wait_weight", [(str "wait_sec", .leaf .uint32),
  (str "weight", .leaf .uint16)])

/-- ship_protocol.hpp:737-744 -/
def authority : Bytes × List (Bytes × CTy) := (str "authority", [(str "threshold", .leaf .uint32),
  (str "keys", .vec (.struct (str "key_weight"))),
  (str "accounts", .vec (.struct (str "permission_level_weight"))),
  (str "waits", .vec (.struct (str "wait_weight")))])

/-- ship_protocol.hpp:746-754 -/
def permission_v0 : Bytes × List (Bytes × CTy) := (str "permission_v0", [(str "owner", .leaf .name),
  (str "name", .leaf .name),
  (str "parent", .leaf .name),
  (str "last_updated", .leaf .time_point),
  (str "auth", .struct (str "authority"))])

/-- ship_protocol.hpp:758-765 -/
def permission_link_v0 : Bytes × List (Bytes × CTy) := (str "permission_link_v0", [(str "account", .leaf .name),
  (str "code", .leaf .name),
  (str "message_type", .leaf .name),
  (str "required_permission", .leaf .name)])

/-- ship_protocol.hpp:769-776 -/
def resource_limits_v0 : Bytes × List (Bytes × CTy) := (str "resource_limits_v0", [(str "owner", .leaf .name),
  (str "net_weight", .leaf .int64),
  (str "cpu_weight", .leaf .int64),
  (str "ram_bytes", .leaf .int64)])

/-- ship_protocol.hpp:780-786 -/
def usage_accumulator_v0 : Bytes × List (Bytes × CTy) := (str "usage_accumulator_v0", [(str "last_ordinal", .leaf .uint32),
  (str "value_ex", .leaf .uint64),
  (str "consumed", .leaf .uint64)])

/-- ship_protocol.hpp:790-797 -/
def resource_usage_v0 : Bytes × List (Bytes × CTy) := (str "resource_usage_v0", [(str "owner", .leaf .name),
  (str "net_usage", .variant [.struct (str "usage_accumulator_v0")]),
  (str "cpu_usage", .variant [.struct (str "usage_accumulator_v0")]),
  (str "ram_usage", .leaf .uint64)])

/-- ship_protocol.hpp:801-812 -/
def resource_limits_state_v0 : Bytes × List (Bytes × CTy) := (str "resource_limits_state_v0", [(str "average_block_net_usage", .variant [.struct (str "usage_accumulator_v0")]),
  (str "average_block_cpu_usage", .variant [.struct (str "usage_accumulator_v0")]),
  (str "total_net_weight", .leaf .uint64),
  (str "total_cpu_weight", .leaf .uint64),
  (str "total_ram_bytes", .leaf .uint64),
  (str "virtual_net_limit", .leaf .uint64),
  (str "virtual_cpu_limit", .leaf .uint64)])

/-- ship_protocol.hpp:816-821 -/
def resource_limits_ratio_v0 : Bytes × List (Bytes × CTy) := (str "resource_limits_ratio_v0", [(str "numerator", .leaf .uint64),
  (str "denominator", .leaf .uint64)])

/-- ship_protocol.hpp:825-834 -/
def elastic_limit_parameters_v0 : Bytes × List (Bytes × CTy) := (str "elastic_limit_parameters_v0", [(str "target", .leaf .uint64),
  (str "max", .leaf .uint64),
  (str "periods", .leaf .uint32),
  (str "max_multiplier", .leaf .uint32),
  (str "contract_rate", .variant [.struct (str "resource_limits_ratio_v0")]),
  (str "expand_rate", .variant [.struct (str "resource_limits_ratio_v0")])])

/-- ship_protocol.hpp:838-846 -/
def resource_limits_config_v0 : Bytes × List (Bytes × CTy) := (str "resource_limits_config_v0", [(str "cpu_limit_parameters", .variant [.struct (str "elastic_limit_parameters_v0")]),
  (str "net_limit_parameters", .variant [.struct (str "elastic_limit_parameters_v0")]),
  (str "account_cpu_usage_average_window", .leaf .uint32),
  (str "account_net_usage_average_window", .leaf .uint32)])

/-- ship_protocol.hpp: every reflected struct -/
def prog : Prog := [extension, get_status_request_v0, block_position, get_status_result_v0, get_blocks_request_v0, get_blocks_ack_request_v0, get_blocks_result_base, get_blocks_result_v0, row, table_delta_v0, permission_level, action, account_auth_sequence, action_receipt_v0, account_delta, action_trace_v0, action_trace_v1, prunable_data_type, prunable_data_type_none, prunable_data_type_partial, prunable_data_type_full, prunable_data_type_full_legacy, partial_transaction_v0, partial_transaction_v1, transaction_trace_v0, producer_key, producer_schedule, transaction_receipt_header, packed_transaction_v0, packed_transaction, transaction_receipt_v0, transaction_receipt, block_header, signed_block_header, signed_block_v0, signed_block_v1, get_blocks_result_v1, transaction_header, transaction, code_id, account_v0, account_metadata_v0, code_v0, contract_table_v0, contract_row_v0, contract_index64_v0, contract_index128_v0, contract_index256_v0, contract_index_double_v0, contract_index_long_double_v0, key_value_v0, key_weight, block_signing_authority_v0, producer_authority, producer_authority_schedule, chain_config_v0, global_property_v0, global_property_v1, generated_transaction_v0, activated_protocol_feature_v0, protocol_state_v0, permission_level_weight, wait_weight, authority, permission_v0, permission_link_v0, resource_limits_v0, usage_accumulator_v0, resource_usage_v0, resource_limits_state_v0, resource_limits_ratio_v0, elastic_limit_parameters_v0, resource_limits_config_v0]

/-- ship_protocol.hpp:128 -/
def requestTy : CTy := .variant [.struct (str "get_status_request_v0"), .struct (str "get_blocks_request_v0"), .struct (str "get_blocks_ack_request_v0")]

/-- ship_protocol.hpp:161 -/
def table_deltaTy : CTy := .variant [.struct (str "table_delta_v0")]

/-- ship_protocol.hpp:200 -/
def action_receiptTy : CTy := .variant [.struct (str "action_receipt_v0")]

/-- ship_protocol.hpp:246 -/
def action_traceTy : CTy := .variant [.struct (str "action_trace_v0"), .struct (str "action_trace_v1")]

/-- ship_protocol.hpp:310 -/
def partial_transactionTy : CTy := .variant [.struct (str "partial_transaction_v0"), .struct (str "partial_transaction_v1")]

/-- ship_protocol.hpp:333 -/
def transaction_traceTy : CTy := .variant [.struct (str "transaction_trace_v0")]

/-- ship_protocol.hpp:393 -/
def transaction_variant_v0Ty : CTy := .variant [.leaf .checksum256, .struct (str "packed_transaction_v0")]

/-- ship_protocol.hpp:401 -/
def transaction_variantTy : CTy := .variant [.leaf .checksum256, .struct (str "packed_transaction")]

/-- ship_protocol.hpp:445 -/
def signed_block_variantTy : CTy := .variant [.struct (str "signed_block_v0"), .struct (str "signed_block_v1")]

/-- ship_protocol.hpp:454 -/
def resultTy : CTy := .variant [.struct (str "get_status_result_v0"), .struct (str "get_blocks_result_v0"), .struct (str "get_blocks_result_v1")]

/-- ship_protocol.hpp:492 -/
def accountTy : CTy := .variant [.struct (str "account_v0")]

/-- ship_protocol.hpp:503 -/
def account_metadataTy : CTy := .variant [.struct (str "account_metadata_v0")]

/-- ship_protocol.hpp:514 -/
def codeTy : CTy := .variant [.struct (str "code_v0")]

/-- ship_protocol.hpp:525 -/
def contract_tableTy : CTy := .variant [.struct (str "contract_table_v0")]

/-- ship_protocol.hpp:538 -/
def contract_rowTy : CTy := .variant [.struct (str "contract_row_v0")]

/-- ship_protocol.hpp:551 -/
def contract_index64Ty : CTy := .variant [.struct (str "contract_index64_v0")]

/-- ship_protocol.hpp:564 -/
def contract_index128Ty : CTy := .variant [.struct (str "contract_index128_v0")]

/-- ship_protocol.hpp:577 -/
def contract_index256Ty : CTy := .variant [.struct (str "contract_index256_v0")]

/-- ship_protocol.hpp:590 -/
def contract_index_doubleTy : CTy := .variant [.struct (str "contract_index_double_v0")]

/-- ship_protocol.hpp:603 -/
def contract_index_long_doubleTy : CTy := .variant [.struct (str "contract_index_long_double_v0")]

/-- ship_protocol.hpp:614 -/
def key_valueTy : CTy := .variant [.struct (str "key_value_v0")]

/-- ship_protocol.hpp:630 -/
def block_signing_authorityTy : CTy := .variant [.struct (str "block_signing_authority_v0")]

/-- ship_protocol.hpp:673 -/
def chain_configTy : CTy := .variant [.struct (str "chain_config_v0")]

/-- ship_protocol.hpp:692 -/
def global_propertyTy : CTy := .variant [.struct (str "global_property_v0"), .struct (str "global_property_v1")]

/-- ship_protocol.hpp:704 -/
def generated_transactionTy : CTy := .variant [.struct (str "generated_transaction_v0")]

/-- ship_protocol.hpp:713 -/
def activated_protocol_featureTy : CTy := .variant [.struct (str "activated_protocol_feature_v0")]

/-- ship_protocol.hpp:721 -/
def protocol_stateTy : CTy := .variant [.struct (str "protocol_state_v0")]

/-- ship_protocol.hpp:756 -/
def permissionTy : CTy := .variant [.struct (str "permission_v0")]

/-- ship_protocol.hpp:767 -/
def permission_linkTy : CTy := .variant [.struct (str "permission_link_v0")]

/-- ship_protocol.hpp:778 -/
def resource_limitsTy : CTy := .variant [.struct (str "resource_limits_v0")]

/-- ship_protocol.hpp:788 -/
def usage_accumulatorTy : CTy := .variant [.struct (str "usage_accumulator_v0")]

/-- ship_protocol.hpp:799 -/
def resource_usageTy : CTy := .variant [.struct (str "resource_usage_v0")]

/-- ship_protocol.hpp:814 -/
def resource_limits_stateTy : CTy := .variant [.struct (str "resource_limits_state_v0")]

/-- ship_protocol.hpp:823 -/
def resource_limits_ratioTy : CTy := .variant [.struct (str "resource_limits_ratio_v0")]

/-- ship_protocol.hpp:836 -/
def elastic_limit_parametersTy : CTy := .variant [.struct (str "elastic_limit_parameters_v0")]

/-- ship_protocol.hpp:848 -/
def resource_limits_configTy : CTy := .variant [.struct (str "resource_limits_config_v0")]

/-- The variants, what messages, traces and rows of deltas are read as. -/
def variants : List CTy := [requestTy, table_deltaTy, action_receiptTy, action_traceTy, partial_transactionTy, transaction_traceTy, transaction_variant_v0Ty, transaction_variantTy, signed_block_variantTy, resultTy, accountTy, account_metadataTy, codeTy, contract_tableTy, contract_rowTy, contract_index64Ty, contract_index128Ty, contract_index256Ty, contract_index_doubleTy, contract_index_long_doubleTy, key_valueTy, block_signing_authorityTy, chain_configTy, global_propertyTy, generated_transactionTy, activated_protocol_featureTy, protocol_stateTy, permissionTy, permission_linkTy, resource_limitsTy, usage_accumulatorTy, resource_usageTy, resource_limits_stateTy, resource_limits_ratioTy, elastic_limit_parametersTy, resource_limits_configTy]

end Ship
end Abieos
